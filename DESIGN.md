# Design: a Lean 4 model of IAU-ADES/ADES-Master

The code modelled is the Python package `/repo/Python/ades`, the master file `/repo/xml/adesmaster.xml` and
the style sheets under `/repo/xslt` that derive tables and schemas from it.  Nothing in `/repo` was run; every
definition of the model cites the file and lines it transcribes and states its simplifications.

## 1. Layout

| files under `lean/Verif/` | content |
|---|---|
| `Py`, `Regex`, `Float` | Python run time: strings, exceptions, `strip/split/rjust/int/str`, slices, Unicode digits; `re.match`; binary64 floats |
| `PackUtil`, `Tables`, `Justify` | `packUtil.py`, its dictionaries, `applyPaddingAndJustification` of `adesutility.py` |
| `Xml` | `xmlutility.py`: elements, `newElement`, `ElementStack` (a heap of cells with references) |
| `PsvToXml`, `XmlToPsv` | `psvtoxml.py`, `xmltopsv.py` |
| `SexVals` | `sexVals.py` (angles, dates, precisions) |
| `Mpc80`, `XmlToMpc80` | `mpc80coltoxml.py`, `xmltompc80col.py` |
| `Master`, `MasterData`, `MasterTables` | `tableades.xslt` + `readAdesTables`, `generalxsd.xslt`, `submitxsd.xslt`; the two others are generated from `adesmaster.xml` (`tools/genmaster.py`) and from the model (`tools/gentables.lean.txt`, checked by the kernel) |
| `Convert` | `convertutility.py` over an abstract file system |
| `Spec/*` | small specifications that do not mention the model (designations, references, sexagesimal angles, dates, 80-column layouts, PSV files, schema validity, element events) |
| `Lemmas/*` | helper lemmas only |
| `Props/*` | the property theorems with their examples, nothing else |

## 2. Conventions

* A Python `str` is a `List Char` (`Str`); lone surrogates are not representable.
* A call that may raise returns `Except PyErr α`; `PyErr` keeps the class of the exception and drops its text,
  because the code dispatches on the class only.  Calls with effects are `EStateM PyErr State`: effects made before an exception stay.
* `None` is `Option.none`; truthiness tests on strings are transcribed as such.
* Regular expressions are transcribed literally into the AST of `Regex.lean` and run by a list-of-successes
  matcher whose first result is the one Python's backtracking matcher returns.  `$` matches at the end and before a final `\n`.
* Loops are structural recursions; module globals are explicit state (this is what C21 is about).
* Dicts are association lists (insertion order kept where it is observable).
* Property statements use `Spec` types; where a statement needs the model's own result type it is only to say what
  the call returned (lines, tree, messages, exception).

## 3. Modelled and not modelled

| module | modelled | not modelled |
|---|---|---|
| `packUtil.py` | all designation, reference, program-code, base-62 and signed-field functions, all dictionaries | two debugging `print`s |
| `adesutility.py` | `readAdesTables` (on the element tree), `applyPaddingAndJustification` | locating the files on disk |
| `xmlutility.py` | element helpers, `ElementStack` | parsing, serialising, XSLT and XSD engines of lxml; `tail`, comments, processing instructions, namespaces |
| `psvtoxml.py` | the whole line machine with its globals, including the `NameError` defects | argument parser, encodings |
| `xmltopsv.py` | everything between tree and lines | argument parser, encodings, comments among children |
| `sexVals.py` | all conversions and precision functions on exact 53-bit arithmetic | counters; `nan`, `inf`; overflow and subnormals |
| `mpc80coltoxml.py` | layouts, decoding, headers, pairing machine, element writing, both radar modes, both runs of `call_with_files`' callback | progress message, `printit`, `prettyPrintDict`, argument parser |
| `xmltompc80col.py` | everything between tree and lines, radar included | argument parser, encodings |
| `convertutility.py` | `call_with_files`, `verify_filename` over an abstract file system | real file systems, signals |
| schemas | content models, attributes of elements that matter to validity, `general` and `submit` derivation | the meaning of built-in simple types and facets is a parameter `Facets` of most theorems, which hold for any; for C49 and C50 it is the one of XML Schema Part 2, written down in `Spec/SimpleTypes` |
| `xmltojson.py`, `jsontoxml.py` | `Json.lean` | the mapping of the package `xmltodict` (`parse`, `unparse` with default options) is modelled from its documented behaviour and trusted; JSON and XML texts are left to readers and writers that are parameters |
| `valutility.py`, `valsubmit.py`, `valgeneral.py`, `valall.py`, `validate.py`, `xslt/xsd/*humanxsd.xslt` | `Validate` | lxml's parser and validator are parameters; an installation without its own files and a closed standard output are left out |
| `valades.py` (ends with a NameError whatever it is given), `readxmlpy.py`, `testit.py`, `xxx80y.py`, C and Fortran | – | demonstration code |

External behaviour that is a *parameter*, so that theorems hold for any choice of it:
`Lxml.tagOk/textOk` (which names and texts lxml accepts), `Facets` (built-in types), the ADES tables where a theorem does not
name `Master.adesTables`.

## 4. Property by property

| id | modelled | how it is proved |
|---|---|---|
| C01–C07 | `packTupleID`, `unpackPackedID`, all regexes they use | inductive `Spec.Designation` with texts `ades` and `columns`; symbolic evaluation of the matcher on both texts for every designation |
| C08 | same | corollary of unpack∘pack |
| C09 | same, arbitrary strings | capture-shape theorem of the matcher (each capture lies in the language of its group), then path analysis |
| C10 | same | path analysis for the classes; families of inputs for the classes that escape |
| C11 | same | path analysis over the four types |
| C12 | `radix62_4`, `unRadix62_4` | arithmetic |
| C13 | `packRef`, `unpackRef` | arithmetic and decimal rendering; whole broken ranges as theorems |
| C14, C16 | code tables | kernel evaluation of the whole (finite) table, lifted to all strings |
| C15, C17 | signed fields, justification | list lemmas for all strings and widths |
| C18–C22 | `psvtoxml` | invariants by induction over line lists, with an independent meaning of a PSV file; defects as theorems |
| C23, C24 | `xmltopsv`, composed with `psvtoxml` | induction over documents; the tables are those computed from `adesmaster.xml` |
| C25, C26 | line machine of `mpc80coltoxml` | induction over line lists against the relation `Accounts` |
| C27 | the five layouts and header lines | evaluation of the (deterministic) regexes on arbitrary lines |
| C28, C37, C41 | element writing, header handling | induction over parts of a file; element-stack lemmas of C36 |
| C29 | line assembly of `xmltompc80col` | length of every column for arbitrary values (bounds on `float`, `%.nf`, `log10`), invariant of the output over the whole traversal; counterexamples for the conditions |
| C30–C32 | `sexVals` | error analysis over ℚ of every 53-bit rounding; exact exception sets; the following day of radar dates against an independent calendar (`Spec/Tomorrow.lean`) |
| C33 | tables and schema | theorems for any master file with decidable side conditions checked by the kernel on the real one |
| C34 | the two schema derivations | structural induction over content models |
| C35 | `call_with_files` | case analysis over arguments, file states and exceptions of the callback |
| C36 | `ElementStack` on a heap | refinement to an event list, by induction over operations |
| C38 | whole optical observations | composition of C01–C07, C13–C17, C27, C30–C32 per column, then per element, then per file |
| C39 | both 80-column converters composed | dictionary view of the elements of C38, per-column inverse lemmas, induction over groups |
| C40 | document structure of written 80-column files | induction over the element tree |
| C42 | `sexVals` on arbitrary decimal angles | exactness of the float subtractions plus one rounding error bound; near ties excluded, defects as theorems |
| C44 | optical observations written and read again | the columns one by one (C01–C13, C32, C42), then C38 on the lines; `Spec/Sent.lean` says which values |
| C43 | radar lines: pairs, splitting, the element | `Spec/Radar.lean` gives lines, element and the pieces of a file; composition with C38 and C37 |
| C45 | radar observations to ADES and back | the columns of `printRadarLine` one by one from the values of C43 (a number cut out of its columns is put back into the same columns), dates by C32; groups by the document lemma of C39; runs that end early by a prefix lemma |
| C46 | XML to JSON and back | pushing sub-elements one by one gives a table by first appearance of names (induction on the children); writing the table back gives the grouped children (induction on the document); canonical JSON by constructing its element; documents valid under a schema by a checker on content models, proved sound, evaluated in the kernel; files by C35 |
| C47 | What the validators report | the effects on the file system are computed step by step as in C35; the readable schemas are computed from the master file and compared in the kernel; the three forms follow from C34 |
| C48 | Observation times that xmltompc80col accepts | every match of the pattern of strptime is analysed field by field (a field takes two digits in its range or leaves a digit before the separator) |
| C49 | Which values the schemas admit for each field | both directions: every type's alternatives (its union and restriction chain) are computed from the schema, and each pattern is turned into a statement about characters by lemmas on regular expressions (`Lemmas/Takes`); the table of values is a separate specification (`Spec/Fields`) |
| C50 | A valid submission survives as PSV | the meaning of types, patterns and limits is a separate specification (`Spec/SimpleTypes`); from it validity gives what C24 asks for: regular expressions are analysed for which characters can occur, the content models are inverted; the three conditions left have counterexamples |
| C51 | Valid submissions in the 80-column format | the fields of an observation of a valid submission are looked up through the content models (which fields are required, absent, paired) and C49 gives their values; from these an observation in the sense of C44 is built; documents by C40; radar observations lack `ref`; widths by C29 applied to each observation alone |
| C52 | Which 80-column files become valid ADES documents | by C43 the document is known; validity of an element of fields is that of each field (C49) and a word of the content model, both directions by computation on the schema (required, paired and exclusive elements) and by induction on words; headers by the `all` group; blocks and documents by induction on groups |
| C53 | Which designations can be packed | completeness of the regular-expression model (`parse_some`) beside its soundness; each text is at most one designation (`unique`), so at most one pattern matches and its groups are known; then `packTupleID` is computed by cases on ranges |
| C54 | What every text in columns 1-12 stands for, and which come back | the matches of the three packed patterns are characterised by soundness and completeness of the regular-expression model and shown to exclude one another; the code after each match is computed on every form (`*_run`), and forms determine their result (`unique`); texts that come back: the designation is built from the form, and forms that stand for none are refused by C53 |
| C55 | What is printed about an 80-column file, and what becomes of a stopped conversion | both passes are run in step (`loop_tells`, by induction over the lines): the messages of the converting pass are those of the reading pass with the callback's inserted line by line, up to where it stops; then the two outcomes of `mpc80coltoxml` by cases |
| C56 | A valid submission through 80 columns and back | validity gives every block one context and observations of known fields (C50/C51); the fields give `Sent` values that are writable and readable (`readable_of`), C44 gives their lines and what they say, the header lines are those of `headersOf` (`headers_lines`), C38_file reads groups of such lines; the context that comes back is compared part by part (`context_back`) |
| C57 | How the conversion of an unacceptable PSV file ends | `Spec/PsvErrors` says which line is wrong and with which exception; the machine's position is the group list (`continues_iff`), each transition that the grammar lacks is NameError (`step_none`), each that it has raises nothing but lxml's ValueError (`step_only`), `read_error` finds the first wrong line by induction over the lines |
| C58 | What every text in the reference columns stands for, and which references come back | `Spec/References`; Python's int is characterised by its grammar (`pyInt_iff`, induction over the digits and underscores), split()[1] by `SecondWord`; both functions are shown total over the cases of the specification, which gives the equivalences; C58_both by cases of what the columns stand for |
| C59 | White space and digits are those of Python's `str` | explicit tables `pythonSpaces`, `firstScripts`, `otherScripts`; the model's predicates are shown equal to them for every character, the scripts' ranges shown disjoint |
| C60 | Exactly which date and position columns are accepted | the reverse of C30–C32: a match of the pattern determines the groups (`Lemmas/SexAccept`, `DateAccept`), each group is shown to be the text of a reading, and the comparison with the text formatted back rejects minutes and seconds from 60 on |
| C61 | Exactly which optical lines are decoded, and how the others end | `Spec/Decoded` lists the columns; both directions from C54 and C60 with the column layout of the regular expression; the date check's exceptions by reading any text that the pattern matches as numbers (`Lemmas/DateError`) and comparing with the column of the same date; the end of a run by induction over the lines before |
| C62 | Exactly which second lines are decoded | `Spec/Second`; the coordinates that `unPackSigned` writes as `packSigned` read them are characterised with the closed forms of the padding (C17), then the column layout of the regular expressions in both directions |
| C63 | Exactly which radar lines are decoded | `Spec/Second` (`RadarDate`, `RadarFirstColumns`, `RadarSecondColumns`); C32's error bounds decide every date but the exact ties, since the distance in units of 1/86400 of the last digit is a whole number; then as C62 |

Where the English claim is false of the code the theorem states what the code does, the exception set is explicit, and the
defect is proved (C03, C10, C11, C13, C15, C20–C23, C25, C28, C32, C37–C39, C41, C42).

## 5. Trusted base

* Lean 4.33.0's kernel.  Axioms: at most `propext`, `Classical.choice`, `Quot.sound` for every theorem of
  `MANIFEST.json` (`#print axioms`).  No axioms added, no compiled evaluation: `decide +kernel` and the local
  tactic `kernel_rfl` (an `Eq.refl` elaborated without unfolding) are both checked by the kernel.
* Mathlib is imported module by module in `Lemmas`, for ordered-field arithmetic (`norm_num`, `linarith`, `field_simp`), not in models or specs.
* That the model definitions read the cited Python lines faithfully.  The CPython facts used: `re` priority order and
  `\d`/`int` on Unicode decimal digits (Unicode 14), `str.strip`/`splitlines` white space, float arithmetic = correctly
  rounded binary64, `'%.nf'` and `round` correctly rounded (ties to even), `float(str)` correctly rounded, universal newlines when reading files.
* `math.log10`/`pow` are used by the code on precisions only, always on exact powers of ten where the model uses their exact value.
