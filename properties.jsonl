{"id": "C01", "title": "Minor-planet numbers survive the 80-column packing in both directions", "statement": "For every number n in 1..15396335, packing permID str(n) (no provID, no trkSub) gives a 12-column ID whose unpacking is the same permID with no provID; numbers 0 and above 15396335 are refused with RuntimeError.", "quantifier": "all natural numbers n", "why_tests_cant": "15.4 million legal values plus an infinite refused range; the letter form, the ~base-62 form and the boundaries 619999/620000 and 15396335/15396336 must all agree", "anchors": ["Python/ades/packUtil.py:packTupleID", "Python/ades/packUtil.py:unpackPackedID", "Python/ades/packUtil.py:radix62_4", "Python/ades/packUtil.py:unRadix62_4"]}
{"id": "C02", "title": "Normal provisional designations survive packing in both directions", "statement": "For every year in 1800..2099, half-month letter A-Y without I, order letter A-Z without I and cycle count 0..619, packing 'YYYY HO<cycle>' gives column 5 blank + 7 columns, and unpacking it returns the same text.", "quantifier": "all (year, half month, order, cycle) in the stated ranges", "why_tests_cant": "2.2 million-plus designations per letter pair; the cycle letter/digit split and omitted zero cycle are corner cases", "anchors": ["Python/ades/packUtil.py:packTupleID", "Python/ades/packUtil.py:unpackPackedID"]}
{"id": "C03", "title": "Extended provisional designations survive packing in both directions", "statement": "For every year in 2025..2035 and every order/cycle from cycle 620 letter A to cycle 591673 letter L, the packed form '_' year-letter half-month base62 unpacks to the same text; larger cycles are refused; outside those years the packing is not invertible.", "quantifier": "all (year, half month, order, cycle)", "why_tests_cant": "14.7 million order numbers per half month; base-62 and base-25 arithmetic have to be mutually inverse", "anchors": ["Python/ades/packUtil.py:packTupleID", "Python/ades/packUtil.py:unpackPackedID", "Python/ades/packUtil.py:radix62_4"]}
{"id": "C04", "title": "Survey designations survive packing in both directions", "statement": "For every number 0000..9999 and survey P-L, T-1, T-2, T-3, 'NNNN S-X' packs to 'SXSNNNN' in columns 6-12 and unpacks to the same text.", "quantifier": "all survey numbers and surveys", "why_tests_cant": "each survey packed form also matches the shape of a tracklet ID, so the reader's order of alternatives matters for every value", "anchors": ["Python/ades/packUtil.py:packTupleID", "Python/ades/packUtil.py:unpackPackedID"]}
{"id": "C05", "title": "Comet designations survive packing in both directions", "statement": "For every numbered comet (1..9999, P or D, optional one- or two-letter fragment), every provisional comet (type, year 1000..6199, half month, optional order letter, number 0..619) and fragment, and their combinations with agreeing fragment, pack then unpack returns the same permID/provID and unpack then pack the same 12 columns.", "quantifier": "all comet designations in the stated ranges", "why_tests_cant": "combination of five optional parts with shared columns", "anchors": ["Python/ades/packUtil.py:packTupleID", "Python/ades/packUtil.py:unpackPackedID"]}
{"id": "C06", "title": "Natural satellite designations survive packing in both directions", "statement": "For every planet J/S/U/N and number 1..999, and every provisional 'S/YYYY P n' with year 1000..6199 and n in 1..619, and their combinations, pack and unpack are mutually inverse; number 0 is refused.", "quantifier": "all satellite designations in the stated ranges", "why_tests_cant": "millions of values; year century letter and number letter codings", "anchors": ["Python/ades/packUtil.py:packTupleID", "Python/ades/packUtil.py:unpackPackedID"]}
{"id": "C07", "title": "Tracklet IDs survive packing, and what is lost for long ones is exactly the first character", "statement": "For every tracklet ID of 1..7 characters from [-A-Za-z0-9] that does not itself have the shape of a packed provisional designation, pack then unpack returns it; an 8-character ID is packed as its last 7 characters.", "quantifier": "all tracklet IDs", "why_tests_cant": "63^7 values, with an exception set defined by other regexes", "anchors": ["Python/ades/packUtil.py:packTupleID", "Python/ades/packUtil.py:unpackPackedID", "Python/ades/packUtil.py:trksubRegexHelp"]}
{"id": "C08", "title": "No two different designations share a packed form", "statement": "If two valid designations (any class from C01-C07) pack to the same 12 columns they are the same designation.", "quantifier": "all pairs of valid designations", "why_tests_cant": "a statement about pairs across seven classes; testing can only sample collisions", "anchors": ["Python/ades/packUtil.py:packTupleID"]}
{"id": "C09", "title": "A packed ID always fills exactly 12 columns", "statement": "Whenever packTupleID returns (for any triple of strings or None at all), the result has exactly 12 characters.", "quantifier": "all triples of optional strings", "why_tests_cant": "the input strings are arbitrary, including ones the author did not anticipate; a different length would shift every later column of the 80-column record", "anchors": ["Python/ades/packUtil.py:packTupleID"]}
{"id": "C10", "title": "ID conversion failures are RuntimeError", "statement": "Every input that cannot be packed or unpacked is reported with RuntimeError, the only exception the per-record handlers of the converters catch. (False of the code: ValueError and IndexError escape for certain inputs; the exact classes are proved.)", "quantifier": "all triples / all strings", "why_tests_cant": "requires an exhaustive path analysis over arbitrary strings", "anchors": ["Python/ades/packUtil.py:packTupleID", "Python/ades/packUtil.py:unpackPackedID", "Python/ades/mpc80coltoxml.py:mpc80coltoxml"]}
{"id": "C11", "title": "Contradictory permID and provID are refused", "statement": "If a permID and a provID are of different object types (minor planet / comet / comet fragment / satellite), or are comet fragments with different fragment letters, packing is refused with RuntimeError.", "quantifier": "all pairs of valid permID and provID", "why_tests_cant": "a cross product of two unbounded families", "anchors": ["Python/ades/packUtil.py:packTupleID"]}
{"id": "C12", "title": "Four-digit base-62 coding is a bijection on 0..62^4-1", "statement": "unRadix62_4(radix62_4(n)) = n for every n < 62^4, radix62_4(unRadix62_4(s)) = s for every '~' + 4 base-62 digits, the coding preserves order, and outside that range it wraps modulo 62^4.", "quantifier": "all integers / all 5-character strings of that shape", "why_tests_cant": "14.8 million values and wrap-around for all integers", "anchors": ["Python/ades/packUtil.py:radix62_4", "Python/ades/packUtil.py:unRadix62_4"]}
{"id": "C13", "title": "Publication references survive packing", "statement": "For MPC n (n in 0..109999 and 200000..110000+62^4-1) and MPS n (n in 0..259998 and 260000..260000+62^4-1) unpacking the packed reference yields the canonical reference to the same publication and page; packing is always 5 columns wide. (False for MPC 110000..199999 and MPS 259999: proved with witnesses.)", "quantifier": "all page numbers", "why_tests_cant": "28 million values; the broken range is silent data corruption a sample may miss", "anchors": ["Python/ades/packUtil.py:packRef", "Python/ades/packUtil.py:unpackRef"]}
{"id": "C14", "title": "Program codes convert losslessly", "statement": "Every one of the 94 obs80 program characters converts to a distinct two-character ADES code that converts back to it; every other single character is refused; of all two-character base-62 strings exactly the first 94 codes are in the image and all the others read back as blank.", "quantifier": "all characters and all two-character strings", "why_tests_cant": "the domain of the inverse is 3844 strings plus refused input", "anchors": ["Python/ades/packUtil.py:packProgID", "Python/ades/packUtil.py:unpackProgID"]}
{"id": "C15", "title": "Signed fields survive being spread and squeezed", "statement": "For a signed decimal number that fits, writing it into a fixed-width signed field (unPackSigned) gives exactly the field width with the sign in the first column and the decimal point in the requested column, and reading it back (packSigned) returns the same number text (with '+' made explicit). A number that does not fit is not refused: the field comes out wider than requested (finding).", "quantifier": "all numbers, widths and decimal columns", "why_tests_cant": "unbounded digit strings and widths", "anchors": ["Python/ades/packUtil.py:packSigned", "Python/ades/packUtil.py:unPackSigned", "Python/ades/adesutility.py:applyPaddingAndJustification"]}
{"id": "C16", "title": "Code dictionaries are invertible", "statement": "Catalogue codes and observing-mode codes are one-to-one: translating a column code to ADES and back returns it, and vice versa, for every entry.", "quantifier": "all entries of both tables", "why_tests_cant": "dictionary inversion by comprehension silently drops duplicates; only a statement over the full table excludes it", "anchors": ["Python/ades/packUtil.py:catCodes", "Python/ades/packUtil.py:rCatCodes", "Python/ades/packUtil.py:codeDict", "Python/ades/packUtil.py:reverseCodeDict"]}
{"id": "C17", "title": "Justification never loses or corrupts a value", "statement": "Padding a value with applyPaddingAndJustification only ever adds blanks around it: the value is never truncated or altered, stripping the result gives the value back, the reported width is the true width and is at least the requested one; for L, R and C a value that fits gets exactly the requested width, on the requested side; for D the decimal point lands in the reported column, which is the requested one if the digits before the point fit. D fails, with RuntimeError, exactly for a negative column or a value with more than one decimal point.", "quantifier": "all strings, widths, justification codes and decimal columns", "why_tests_cant": "unbounded values and widths with many interacting branches", "anchors": ["Python/ades/adesutility.py:applyPaddingAndJustification"]}
{"id": "C18", "title": "A PSV data row becomes exactly its non-blank cells", "statement": "For every header line (with distinct column names) and data row accepted by psvtoxml the produced observation element has one child per non-blank cell, named by the column and with the stripped text of the cell, in the order the schema prescribes whatever the column order; if a column name occurs twice the last cell wins; a row with more cells than the header is refused.", "quantifier": "all header/row pairs", "why_tests_cant": "unbounded numbers of columns and contents", "anchors": ["Python/ades/psvtoxml.py:dataAction", "Python/ades/psvtoxml.py:parsePSVLine"]}
{"id": "C19", "title": "PSV output nests as the ADES schema requires", "statement": "Whatever sequence of lines is read, the element tree under construction is always a path ades > obsBlock > (obsContext|obsData) ..., and in the finished tree every obsBlock is a child of ades, obsContext and obsData are children of obsBlock and observations are children of obsData (or directly of ades in the non-block form).", "quantifier": "all line sequences", "why_tests_cant": "the writer is a five-state machine with global state; the property is an invariant over all histories", "anchors": ["Python/ades/psvtoxml.py:psvtoxml", "Python/ades/xmlutility.py:ElementStack"]}
{"id": "C20", "title": "No PSV line is silently ignored", "statement": "Each physical line read either advances the machine with a recorded effect (version, header, keyword, data) or is blank, or the run stops with an error identifying it.", "quantifier": "all line sequences", "why_tests_cant": "history property of the state machine", "anchors": ["Python/ades/psvtoxml.py:psvtoxml"]}
{"id": "C21", "title": "PSV to XML conversion can be repeated in one process", "statement": "Calling psvtoxml twice in one process gives the second file the same result as in a fresh process. (False of the code: module-global state is not reset; proved with witness, positive part for the first call.)", "quantifier": "all pairs of input files", "why_tests_cant": "a property of call histories", "anchors": ["Python/ades/psvtoxml.py:psvtoxml", "Python/ades/psvtoxml.py:firstLine"]}
{"id": "C22", "title": "The last PSV line is read in full", "statement": "Every physical line's text, including the last one, reaches the parser unchanged. (False when the file does not end in a newline: the last character is cut.)", "quantifier": "all files", "why_tests_cant": "depends on every possible last line", "anchors": ["Python/ades/psvtoxml.py:psvtoxml"]}
{"id": "C23", "title": "XML to PSV columns line up", "statement": "For every document xmltopsv accepts, the file is the version line followed by contexts and tables. Every table has one column per name in use; header and rows have the same columns; a row shows exactly the values of one observation, in document order; text columns have one width, decimal points of a number column stand under each other. If the integer parts of the values fit the PSV formats (and columns without a format hold no decimal points), every cell has exactly the width of its column; otherwise a number with many decimals can be wider than its column. A block without observations repeats the previous table; residuals cannot be written; nested content is dropped.", "quantifier": "all ADES trees for which the conversion succeeds", "why_tests_cant": "quantifies over all observation sets and field widths", "anchors": ["Python/ades/xmltopsv.py:processDataElement", "Python/ades/xmltopsv.py:printDataDicts"]}
{"id": "C24", "title": "ADES XML to PSV and back preserves the observations", "statement": "For every document of valid observations (optical, offset, occultation, radar) and blocks with two-level contexts whose values contain no '|', line break or outer blanks and do not begin like a context line, xmltopsv succeeds (unless a number has two decimal points), and psvtoxml reads the written file back to the same document: all observations, values and contexts, in order.", "quantifier": "all documents a PSV file can express, of any size", "why_tests_cant": "composition of two programs over unbounded inputs", "anchors": ["Python/ades/xmltopsv.py:xmltopsv", "Python/ades/psvtoxml.py:psvtoxml"]}
{"id": "C25", "title": "80-column parsing accounts for every line", "statement": "For every 80-column file each input line that the parser reaches is in exactly one emitted record (one- or two-line observation, or header), or is blank, or is reported on the error stream itself or together with the line that follows it; no line is used twice and order is kept. The only silent loss is a first line of a two-line record after which nothing but blank or refused lines follow. A complete line (or header) after an incomplete first line is lost with it and only the mismatch is reported.", "quantifier": "all sequences of lines", "why_tests_cant": "the two-line pairing (R/r, S/s, V/v) is a state machine over line histories", "anchors": ["Python/ades/mpc80coltoxml.py:parse80ColumnFile", "Python/ades/mpc80coltoxml.py:decode80ColumnDataLine"]}
{"id": "C26", "title": "Two-line records pair only matching lines", "statement": "A two-line record is emitted only if the next line that is neither blank nor refused has the lower-case type code of the first line and repeats its designation, date and station columns (and for radar the reference columns); a continuation line that differs in one of them stops the whole conversion.", "quantifier": "all sequences of lines", "why_tests_cant": "history property over arbitrary interleavings of line types", "anchors": ["Python/ades/mpc80coltoxml.py:parse80ColumnFile"]}
{"id": "C27", "title": "80-column fields are cut at the documented columns, for all five kinds of line", "statement": "For every line that decoding accepts, each field returned is exactly the documented column range of that kind of line (optical: ID 1-12, discovery 13, notes 14, code 15, date 16-32, RA 33-44, Dec 45-56, mag 66-70, band 71, catalogue 72, reference 73-77, station 78-80; satellite, rover and both radar lines have their own ranges), whatever stands in the other columns; a header line gives its keyword and the text after it; data lines have 80 columns.", "quantifier": "all 80-character lines", "why_tests_cant": "regular expressions with optional blanks could shift columns on some inputs", "anchors": ["Python/ades/mpc80coltoxml.py:decode80ColumnDataLine"]}
{"id": "C28", "title": "Which optical lines become observations", "statement": "Every data line (or pair of lines) read with an observation code valid for optical observations yields exactly one <optical> element, except that the code 'x' is dropped without a message and a roving-observer pair without an altitude is dropped with a message.", "quantifier": "all lines, all code letters, all documents built so far", "why_tests_cant": "absence of output for one letter is invisible unless every letter is covered", "anchors": ["Python/ades/mpc80coltoxml.py:opticalCodes", "Python/ades/packUtil.py:validCodes"]}
{"id": "C29", "title": "Every 80-column record written has exactly 80 columns", "statement": "Every record line that xmltompc80col writes for a document is exactly 80 characters long (81 if the station codes have four characters), whatever the document, as long as its observations' values fit the columns: years 1000 to 9999, time precision not below 1 microday, declination precision not below 0.01\", radar values with no more digits than columns and a five-character radar reference, station not 244. Outside these conditions schema-valid values give longer or shorter lines.", "quantifier": "all element trees, all option settings, all values of all fields", "why_tests_cant": "fixed-width output assembled from variable-width parts", "anchors": ["Python/ades/xmltompc80col.py:printOpticalLine", "Python/ades/xmltompc80col.py:printRadarLine"]}
{"id": "C30", "title": "Right ascension survives conversion", "statement": "For every well-formed sexagesimal RA column converting to decimal degrees plus precision and back returns the same column text.", "quantifier": "all RA column texts", "why_tests_cant": "tens of millions of texts at seven precisions, through binary floating point", "anchors": ["Python/ades/sexVals.py:sexRaToDecRa", "Python/ades/sexVals.py:decRaToSexRa"]}
{"id": "C31", "title": "Declination survives conversion", "statement": "For every well-formed sexagesimal declination column converting to decimal degrees plus precision and back returns the same text, including the sign of -00 declinations.", "quantifier": "all declination column texts", "why_tests_cant": "millions of texts at several precisions through binary floating point", "anchors": ["Python/ades/sexVals.py:sexDeclToDecDecl", "Python/ades/sexVals.py:degDeclToSexDecl"]}
{"id": "C32", "title": "Observation dates survive conversion", "statement": "For every well-formed 80-column date with one to six digits of the day, except those whose fraction is one of 100 explicitly listed multiples of 1/1600 day (189 texts), the ISO time produced is within half a millisecond of the date, is accepted, carries the date's precision, and converts back to the same columns. The excluded dates are accepted with a time 0.1 s late (up to five digits) or refused (six digits). Radar dates give the nearest whole second and are accepted exactly when that second rounds back to the digits given; days the month lacks raise ValueError; converting an ISO time just before midnight loses the carry into the next day.", "quantifier": "all dates and fractional days", "why_tests_cant": "10^6 fractional days times all calendar dates through binary floating point", "anchors": ["Python/ades/sexVals.py:sexDateToISO", "Python/ades/sexVals.py:isoToSexDate", "Python/ades/sexVals.py:checkDate"]}
{"id": "C33", "title": "The PSV tables agree with the schema derived from the same master file", "statement": "For each observation type: the sub-elements of every schema-valid observation come in the order of the type's table, each at most once; required names occur in every valid observation; every allowed name can occur; required names are allowed and nothing is listed twice (for any master file); a PSV header that contains the names of a valid observation and only names allowed for its type is classified as that type; a PSV row with the values of a valid observation, whatever the column order, becomes exactly that observation. (PSV width entries do not all agree: misspelt and disallowed names are listed exactly.)", "quantifier": "every observation element valid under the general schema (whatever the simple types mean), every header and row; every table file for the table invariants", "why_tests_cant": "finite but large tables assembled through inheritance and grouping", "anchors": ["Python/ades/adesutility.py:readAdesTables", "xml/adesmaster.xml"]}
{"id": "C34", "title": "What is valid for submission is valid in general", "statement": "Every observation accepted by the submission schema rules derived from adesmaster.xml is accepted by the general rules.", "quantifier": "all observations", "why_tests_cant": "quantifies over all documents; two schemas are generated by different stylesheets", "anchors": ["xml/adesmaster.xml", "xslt/xsd"]}
{"id": "C35", "title": "Where converters read from and write to", "statement": "When a file name is omitted on the command line, a converter reads standard input or writes standard output and creates, changes or leaves behind no file; when names are given, exactly the named output file is written. Pipes and files give the same text, up to line ends (CR LF and CR become LF). If the conversion raises, nothing reaches standard output, while a named file keeps what was written. The temporary files are removed in every case. An argument that is no file name (a pathlib.Path, for instance) is refused with ValueError before anything is done. Exceptions to what a user might expect: '-' is an ordinary file name; standard input is closed by its first use, a second call is refused; the converters that open the output first (xmltompc80col, xmltojson, jsontoxml) destroy the input if both names are the same, and empty the output if the input does not exist.", "quantifier": "every converter (any function from text to written text and exception), every file system state, all combinations of arguments, any fresh temporary names", "why_tests_cant": "must hold for every exception point in the wrapped call", "anchors": ["Python/ades/convertutility.py:call_with_files"]}
{"id": "C36", "title": "The element stack is a stack", "statement": "After any sequence of pushes and pops that the writer performs without error, the current element is the most recent unclosed one, the root is never lost, closing more than was opened is an error, and the finished tree contains each opened element exactly once under its parent.", "quantifier": "all sequences of operations", "why_tests_cant": "history property over operation sequences", "anchors": ["Python/ades/xmlutility.py:ElementStack"]}
{"id": "C37", "title": "Document structure of converted 80-column files", "statement": "For an 80-column file whose runs of header lines each come before their data lines, the converter writes one ades document with one obsBlock per run of header lines, in order; its obsContext holds the first occurrence of each header keyword and the COM comments in order, and its obsData holds, in order, the element that each line would give if it were converted alone. Without headers the elements stand directly under ades. Headers that follow loose data end up nested in the last observation (a defect).", "quantifier": "all files, of any number of blocks, headers and lines", "why_tests_cant": "the structure depends on the history of all earlier lines through a mutable element stack", "anchors": ["Python/ades/mpc80coltoxml.py:mpc80coltoxml", "Python/ades/mpc80coltoxml.py:convertHeader", "Python/ades/xmlutility.py:ElementStack"]}
{"id": "C41", "title": "A block without observations breaks the rest of the file", "statement": "If the lines of a block of an 80-column file all fail to give an observation, every later header line of the file is refused with an error, and no further block is opened.", "quantifier": "all files and all later lines", "why_tests_cant": "it is about every continuation of a history", "anchors": ["Python/ades/mpc80coltoxml.py:mpc80coltoxml", "Python/ades/mpc80coltoxml.py:convertHeader"]}
{"id": "C38", "title": "Optical 80-column observations become the ADES elements that their columns describe", "statement": "Every optical observation in the 80-column format (one line, or two lines for a spacecraft or a roving observer) whose columns follow the published format is converted to one optical element whose designation, station, mode, program, time, right ascension, declination, precisions, magnitude, band, catalogue, reference, discovery mark and observer position are those that the columns state, and a whole file of such observations under header lines becomes one document with those elements in order, with and without splitting of combined radar lines. A line whose designation columns hold '_' or '-' (legal in ADES tracklet names) is refused.", "quantifier": "all observations, all files of any length, both --nosplit modes, any acceptance behaviour of the XML library", "why_tests_cant": "the columns range over billions of values, and line pairing depends on the whole preceding file", "anchors": ["Python/ades/mpc80coltoxml.py:decode80ColumnDataLine", "Python/ades/mpc80coltoxml.py:decode80ColumnDataset", "Python/ades/mpc80coltoxml.py:convertit", "Python/ades/mpc80coltoxml.py:mpc80coltoxml"]}
{"id": "C39", "title": "80-column files converted to ADES and back come back in a normal form, and normal forms come back unchanged", "statement": "Every file of header lines and optical observations (ground, spacecraft, roving) that the 80-column format allows, converted to ADES XML and back, gives exactly the lines of its normal form, whatever the precision options: designation, discovery mark, note, code, date, right ascension, declination, observatory code and spacecraft coordinates are restored exactly; magnitudes and rover coordinates are realigned at the decimal point; a magnitude without band gets band N; unknown catalogue letters, columns 57-65, header keywords without ADES counterpart and repeated headers are lost; second lines take mark, note, catalogue and reference of the first. No message, no exception. The normal form is stable: converting again changes nothing. Exceptions: references that cannot be repacked, and observatories 275 and 244, whose observations abort the way back with KeyError and lose everything after them.", "quantifier": "all files of any length with any valid observations, both --nosplit modes, with and without --noHeader, all precision options", "why_tests_cant": "the composition of two converters over all values of every column, with floating-point conversions of date and angles in both directions", "anchors": ["Python/ades/mpc80coltoxml.py:mpc80coltoxml", "Python/ades/xmltompc80col.py:xmltompc80col", "Python/ades/xmltompc80col.py:printOpticalLine", "Python/ades/xmltompc80col.py:processObsContext"]}
{"id": "C42", "title": "Right ascensions and declinations written in 80 columns are the document's values rounded to its precision", "statement": "For every right ascension from 0 to 360 degrees and every declination from -90 to 90 degrees, written with any number of digits, and every angular precision the schema allows (1, 0.1, 0.01, 0.001, 60, 6, 0.6), the column written has exactly that precision as its last place, carries the sign of the declination, and its value is within half a unit (plus 1e-9 seconds) of the document's value. Unless the value is within half a unit of a carry, the column is read back, with the same precision, as degrees less than one unit away. Exceptions proved: carries are not performed (seconds or minutes of 60 are written, and refused on reading), and declinations within 1e-9 seconds of a tie can give malformed columns.", "quantifier": "all decimal numerals of any length in range, all precisions of the schema", "why_tests_cant": "unboundedly many decimal values through several floating-point roundings; the failures sit at values a test would not hit", "anchors": ["Python/ades/sexVals.py:decRaToSexRa", "Python/ades/sexVals.py:degDeclToSexDecl", "Python/ades/sexVals.py:checkRa", "Python/ades/sexVals.py:checkDec", "Python/ades/xmltompc80col.py:printOpticalLine"]}
{"id": "C40", "title": "A document written in 80 columns is its header lines and the lines of each observation, in document order", "statement": "For every ADES document whose blocks contain observations of one kind each, the 80-column file consists of exactly: for each block the header lines of its obsContext (COD, CON, OBS, MEA, TEL, COM with the texts of the corresponding elements; none with --noHeader) followed by the lines that each observation gives when converted in a document of its own, and the lines of observations outside blocks, all in document order. The first observation whose conversion fails ends the run with its exception and everything before it remains in the file. Occultations are written like optical observations; offsets and residuals give one message each and no line, without an error; another root element is refused. Exception proved: a block without observations repeats the observations of the block before it.", "quantifier": "all documents with any number of blocks and observations, all options, all failing observations", "why_tests_cant": "the output is driven by module-level state carried from block to block; it must hold for every sequence of blocks and every failure point", "anchors": ["Python/ades/xmltompc80col.py:processAdesElement", "Python/ades/xmltompc80col.py:processObsBlock", "Python/ades/xmltompc80col.py:processObsContext", "Python/ades/xmltompc80col.py:printDataDicts", "Python/ades/xmltompc80col.py:processDataElement"]}
{"id": "C44", "title": "An ADES optical observation written in 80 columns says the same, and what is lost on the way back is exactly what the columns cannot hold", "statement": "Every optical element (fields in any order, further fields ignored) with values ADES allows is written as one line, or two if it has a position, whose columns say: designation, discovery asterisk, programme letter or first note, code (X if deprecated, V/S for a position, A for an old frame, otherwise the letter of the mode), date and time within half a unit of precTime, right ascension and declination within half a unit of precRA/precDec with the declination's sign, magnitude cut after two decimals, one-letter band, catalogue letter (blank if it has none), reference (page, or last five characters), station, coordinates. Reading such lines again gives one optical element per observation, in order, with the same designation, station, asterisk, programme, first note, page, coordinates and precisions, time and angles off by at most half a unit of precision and of the last digit, the mode unless the code column was needed for something else, catalogue UNK if it had no letter, band lost without magnitude. Exceptions proved: modes without a letter (TDI, UNK) end the conversion with a KeyError; a time rounding to the end of the day is written as the beginning of the same day.", "quantifier": "all optical observations: all designations, times, angles of any number of digits, precisions, magnitudes, bands, catalogues, references, places; all orders of fields; all lists of observations", "why_tests_cant": "ten fields with unbounded or large domains pass through independent tables and floating-point roundings; losses sit in combinations", "anchors": ["Python/ades/xmltompc80col.py:printOpticalLine", "Python/ades/mpc80coltoxml.py:mpc80coltoxml", "Python/ades/packUtil.py:packTupleID", "Python/ades/packUtil.py:packRef", "Python/ades/sexVals.py:isoToSexDate"]}
{"id": "C43", "title": "Radar observations in 80-column files become one radar element each, split or not", "statement": "A file made of header lines and of optical and radar observations the format allows is converted to a document with one block per group and one element per observation, in order. The radar element has the designation, transmitter, receiver, the time to the whole second, Doppler shift, delay, their uncertainties, frequency and reference with the decimal points where the format has them, and says whether the delay is to the centre of mass. With splitting on, two lines with both delay and Doppler shift count as two observations: read twice, without columns 48-61 and without columns 35-47, with their line numbers; every file is read this way piece by piece, and a line too short to have column 15, or half a radar observation, ends the conversion with an exception and no document. The split is clean if columns 33-34 and 62 are blank; a digit in column 62 stays in both parts. A blank frequency becomes '.'.", "quantifier": "all radar observations the format allows, all groups of optical and radar observations, all files (for what is read), both settings of splitting", "why_tests_cant": "line pairing, splitting and column arithmetic interact over files of any length; the values range over all column contents", "anchors": ["Python/ades/mpc80coltoxml.py:splitRadar", "Python/ades/mpc80coltoxml.py:doNotSplitRadar", "Python/ades/mpc80coltoxml.py:decode80ColumnDataLine", "Python/ades/mpc80coltoxml.py:mpc80coltoxml"]}
{"id": "C45", "title": "Radar observations survive the way to ADES and back", "statement": "A file of groups of observations, each group all optical or all radar, is converted to ADES and back: for each group its header lines in normal form (or none, if not wanted), then for each observation taken from it, in order, its lines; a radar observation (with a reference of five characters and no points in its number columns) comes back as its two lines with delay, Doppler shift, uncertainties, frequency, transmitter, receiver and the centre-of-mass letter in their columns, a plus sign for a Doppler shift that had none, and the date of six digits nearest to the whole second; a date of six digits comes back unchanged, and a radar observation in the form that is written comes back unchanged. Defects proved: a group with both kinds is converted to a document that cannot be converted back (RuntimeError, the groups before and its header lines are written); an observation without reference ends the way back with a KeyError; with a reference of other than five characters the lines have other than 80 columns.", "quantifier": "all groups of observations the format allows, all options, both settings of splitting, all positions of the defective observation", "why_tests_cant": "blanks, signs and implied points in five number columns combine freely; the defects depend on what precedes", "anchors": ["Python/ades/xmltompc80col.py:printRadarLine", "Python/ades/xmltompc80col.py:processObsBlock", "Python/ades/packUtil.py:unPackSigned", "Python/ades/adesutility.py:applyPaddingAndJustification"]}
{"id": "C46", "title": "XML to JSON and back", "statement": "A document converted to JSON by xmltojson and back by jsontoxml comes back with the white space around its texts removed and, at each level, sub-elements of the same name moved together to where the first of them stood; nothing else changes and nothing is lost. So a document valid for submission comes back unchanged but for white space, and a document valid under the general schema does if it has no localUse element and its top level is sorted by name; a general document with an optical, a radar and an optical observation comes back in another order. Two documents have the same JSON form exactly if they agree after tidying, a second round changes nothing. JSON comes back unchanged exactly if it has one root and canonical values (null, bare texts, objects with attributes, sub-elements, text in this order, lists of two or more); numbers and booleans come back as texts, an empty text as null, a list of one as its value. JSON without exactly one root is a ValueError. An input that cannot be read leaves an empty output; the same name twice destroys the file; a missing input leaves the output alone.", "quantifier": "all well-formed documents (any depth, any names, attributes and texts), all JSON objects, all documents valid under the two schemas, all file names", "why_tests_cant": "the order of sub-elements, repeated names and mixed texts combine at every level of every document; the guarantee for valid documents ranges over everything the schema allows", "anchors": ["Python/ades/xmltojson.py:xmltojson", "Python/ades/jsontoxml.py:jsontoxml", "Python/ades/convertutility.py:call_with_files", "xml/adesmaster.xml"]}
{"id": "C47", "title": "What the validators report", "statement": "valsubmit, valgeneral, valall and validate never raise because a document is invalid: for every file that can be parsed they end normally, their report file holds one line per schema saying whether the document is valid under it, preceded by a warning if the first line that is not blank is not an XML declaration, the same is printed with the reasons, and no other file changes. The report of valall has one of three forms: all four schemas accept; the two for submissions fail and the two general ones accept; all fail - the compact and the readable schema of each kind are the same schema. A file that is missing or cannot be parsed (or a schema file that is missing or is none) is an exception, and nothing changes: a report of an earlier run stays. A candidate with the name of the report file is destroyed and reported to have no declaration. A document from standard input is reported under the name of a temporary file. A declaration after a byte order mark or on two lines is said to be missing; anything beginning with <?xml and with ?> on the same line, such as a style sheet instruction, counts.", "quantifier": "all files and their texts, all documents, all schemas, all earlier contents of the directory", "why_tests_cant": "the agreement of four schemas and the three forms of the report range over all documents; that nothing else changes ranges over all states of the file system", "anchors": ["Python/ades/valutility.py:validate_schema", "Python/ades/valutility.py:validate_xml_declaration", "Python/ades/valall.py:valall", "Python/ades/valsubmit.py:valsubmit", "Python/ades/valgeneral.py:valgeneral", "Python/ades/validate.py:validate", "xslt/xsd/generalhumanxsd.xslt", "xslt/xsd/submithumanxsd.xslt", "xml/adesmaster.xml"]}
{"id": "C48", "title": "Observation times that xmltompc80col accepts", "statement": "An ADES time YYYY-MM-DDThh:mm:ss, with Z or a fraction and Z, is converted to 80 columns exactly if the time exists in the calendar, its seconds are at most 59 and its fraction, if any, has one to six digits; every other time of this shape is a ValueError. So an optical, occultation or radar observation in a leap second, or with more digits in the fraction, both of which the ADES schema allows, or without a time, ends the conversion with an exception and nothing is written for it, whatever its other values are.", "quantifier": "all years 1000 to 9999, all two-digit values of the other fields, all fractions, all precisions, all observations", "why_tests_cant": "calendar, ranges and lengths combine; the reader is a regular expression with alternatives of different lengths followed by a check of the date", "anchors": ["Python/ades/sexVals.py:isoToSexDate", "Python/ades/xmltompc80col.py:printOpticalLine", "Python/ades/xmltompc80col.py:printRadarLine"]}
{"id": "C49", "title": "Which values the schemas admit for each field", "statement": "For every field of an observation (permID, provID, trkSub, mode, stn, ra, dec, mag, band, rms..., pos..., delay, notes, remarks and so on, 60-odd in all) the submission schema made from adesmaster.xml admits exactly the values the field should have: permanent and provisional designations of the MPC's forms of at most 25 characters; stations of three or four letters, digits or underscores; right ascensions from 0 up to but not including 360 with at most 9 decimals, declinations from -90 to 90; magnitudes from -5 to 35; positive numbers of the field's width below 100000; correlations strictly between -1 and 1; existing calendar times with at most 6 decimals of a second, or leap seconds that were announced by 2016 or may come; and so on. The general schema admits the same, but also old names in three fields, and has further fields with their own values. Every observation of every document valid for submission consists of such fields only, each with such a value.", "quantifier": "all fields of all observation types, all strings as their values, and all documents valid for submission", "why_tests_cant": "both directions range over all strings: nothing else is let in and nothing legal is refused", "anchors": ["xml/adesmaster.xml", "xslt/xsd/submitxsd.xslt", "xslt/xsd/generalxsd.xslt", "Python/ades/valsubmit.py:valsubmit"]}
{"id": "C50", "title": "A valid submission survives as PSV", "statement": "A document that is valid under the submission schema - with the real meaning of XML Schema's types, patterns and limits - and that is tidy (no attribute twice, no text together with sub-elements, no white space at the ends of texts, no line breaks in them) is written by xmltopsv without an exception, and psvtoxml reads that PSV as the same document, if three things the schema does not exclude are absent: artSat or obsSubID beginning with # or !, obsSubID (in radar observations also artSat) with two or more points, and a bar in the place of the point of some leap seconds. Each of these is necessary: with # in front of obsSubID, two points in it, or a bar in the time, a valid document is not written or comes back as another one; so is the root, since the schema also admits other documents.", "quantifier": "all documents valid under the submission schema, of any size, with all combinations of fields and values", "why_tests_cant": "ranges over everything the schema allows: every combination of optional fields, every value of every field and every mixture of observation types", "anchors": ["Python/ades/xmltopsv.py:xmltopsv", "Python/ades/psvtoxml.py:psvtoxml", "xml/adesmaster.xml", "xslt/xsd/submitxsd.xslt"]}
{"id": "C51", "title": "Valid submissions in the 80-column format", "statement": "In a document that is valid under the submission schema, every optical observation without artificial satellite name whose designation can be packed, whose mode has a letter (or that has a position), whose station is neither 275 nor 244, whose time is from 1600 on and is neither a leap second nor 24 o'clock, whose declination is not within 1e-9 seconds of a tie, and whose position, if any, is WGS84, ICRF_AU or ICRF_KM and fits its columns, is written by xmltompc80col: the line (and second line) says what the observation says, rounded to the precision, without exception. A document of such observations (and offsets) is written to its end: the header lines of each block, the lines of its observations, nothing else. No radar observation of a valid submission can be written: the conversion always ends with an exception at it (the program wants a reference, submissions have none). Leap seconds and 24 o'clock are valid but always refused. Whatever else it contains, and even if the conversion ends with an exception, every line written for a valid submission has 80 columns or is a header line, provided stations have three characters and are not 244, artificial satellites at most 12 characters, years four digits, altitudes at most 5 characters; with stations of four characters, which are valid, every line has 81 columns.", "quantifier": "all documents valid under the submission schema (with XML Schema's meaning of types and facets), all their observations, both precisions, with and without header lines", "why_tests_cant": "The set of valid submissions is infinite (free order of blocks, any numbers, names, times and white space the patterns admit); that no valid radar observation is ever written and no valid time beyond the two exceptions is refused are statements about all of them.", "anchors": ["Python/ades/xmltompc80col.py:printOpticalLine", "Python/ades/xmltompc80col.py:printRadarLine", "Python/ades/xmltompc80col.py:processObsBlock", "Python/ades/sexVals.py:isoToSexDate", "xml/adesmaster.xml", "xslt/xsd/submitxsd.xslt"]}
{"id": "C52", "title": "Which 80-column files become valid ADES documents", "statement": "A file of header lines and optical and radar observations that the 80-column format allows is converted by mpc80coltoxml to a document that is valid under the general schema - with the real meaning of XML Schema's types, patterns and limits - if and only if: in every group the header lines COD, CON, MEA and TEL are present and these, OBS (if present) and all COM lines say something (names separated by commas each say something, no bars, the code is 3 or 4 letters or digits); all observations of a group are of one kind; every optical observation has an observatory code of letters and digits, right ascension below 24h, declination at most 90 degrees, a magnitude (if any) that is a number from -5 to 35 without zeros in front, with a letter or digit as band, a catalogue code other than '6' (whose name Gaia_2016 is too long for the schema), no bar in the reference, and for roving observers coordinates that are numbers without zeros in front; every radar observation (after splitting, if wanted) has a designation (not a tracklet name), codes of letters and digits, a frequency, and either Doppler shift with uncertainty or delay with uncertainty, not both. In particular a file without TEL line, with both kinds of observations in a group, with a blank frequency or with --nosplit and both measurements is converted without complaint to an invalid document. The document is valid for submission only if it consists of radar observations without reference: converted optical observations can never be submitted as they are.", "quantifier": "all files of groups of header lines and valid optical (ground, spacecraft, rover) and radar observations, of any size, with and without splitting", "why_tests_cant": "an equivalence over all files the format allows: both that nothing else makes the output invalid and that each of these conditions always does", "anchors": ["Python/ades/mpc80coltoxml.py:mpc80coltoxml", "Python/ades/mpc80coltoxml.py:decode80ColumnDataLine", "Python/ades/packUtil.py:catCodes", "xml/adesmaster.xml", "xslt/xsd/generalxsd.xslt", "xslt/xsd/submitxsd.xslt"]}
{"id": "C53", "title": "Which designations can be packed", "statement": "packTupleID returns 12 columns for exactly these triples and refuses all others: a permanent designation (a number; a number with P, D or I; such a comet's fragment of one or two capital letters; Jupiter, Saturn, Uranus or Neptune and a number) whose number is in range; a provisional designation (minor planet, survey, comet, comet fragment, satellite of those four planets) whose century, count and year fit into their columns; both, if both can be packed and are for the same kind of object and the same fragment; or, with neither, a name of one to eight letters, digits and dashes, of which the last seven characters are kept. Digits may be of any script and have zeros in front, one line feed at the end is ignored, the last two digits of a comet's year are copied as they are; the observer's own name is ignored beside a designation. Everything else raises RuntimeError, except that a century or year too large for its letter raises IndexError and a fragment without count ValueError. The schema allows designations that have no columns: satellites of Mars and of minor planets, fragments of A/ objects or with two letters, tracklet names with underscore. An observation with a designation that cannot be packed ends the conversion to 80 columns with the exception, before anything is written for it.", "quantifier": "all triples of texts (or None), of any length and any Unicode characters; all observations", "why_tests_cant": "an equivalence between acceptance and a grammar over all texts, with the result for each", "anchors": ["Python/ades/packUtil.py:packTupleID", "Python/ades/packUtil.py:minorplanetProvIDRegex", "Python/ades/packUtil.py:cometProvIDRegex", "Python/ades/packUtil.py:trksubRegex", "Python/ades/xmltompc80col.py:printOpticalLine", "Python/ades/xmltompc80col.py:printRadarLine"]}
{"id": "C54", "title": "What every text in columns 1-12 stands for, and which come back unchanged", "statement": "unpackPackedID reads a text as designations exactly if it has one of these forms, and returns exactly the texts they stand for: columns 1-5 blank or a minor planet's number (not 0) and then a normal, old-style, survey or extended provisional designation or the observer's own name (at most eight letters, digits and dashes, then blanks; not one of those designations); columns 1-4 blank or a comet's number (not 0, then only P or D), a type letter and then a designation with no letter, a second letter or a fragment letter, or one or two fragment letters, or blanks; columns 1-4 blank or a planet's letter and a satellite's number (not 0), S and then a satellite's designation or blanks. Digits may be of any script and one line feed at the end is ignored. Every other text raises RuntimeError, and no text can be read in two ways. Packing what was unpacked gives back the same text if and only if the text is the 12 columns of a designation that exists; unpacking what was packed gives back the same triple if and only if it is that of a designation that exists.", "quantifier": "all texts, of any length and any Unicode characters; all triples of texts or None", "why_tests_cant": "an equivalence over all texts between what four regular expressions and the code after them accept and a grammar, with the result for each; the set of all texts that survive both directions", "anchors": ["Python/ades/packUtil.py:unpackPackedID", "Python/ades/packUtil.py:minorplanetPackedIDRegex", "Python/ades/packUtil.py:cometPackedIDRegex", "Python/ades/packUtil.py:satellitePackedIDRegex", "Python/ades/packUtil.py:packTupleID"]}
{"id": "C55", "title": "What is printed about an 80-column file, and what becomes of a stopped conversion", "statement": "mpc80coltoxml prints, for each line in order, what reading it has to say (designation not understood, first and second line do not belong together, line refused) and then what converting the item it completes has to say (nothing, altitude missing, refused), up to the line where an exception other than a RuntimeError stops the conversion. If nothing stops it, just this is printed and a document is written. If it is stopped, no document is written; after these messages the exception is printed once, and then everything reading alone has to say about all lines: the same as before about the lines up to there, and then about the lines after. The program ends with an exception exactly if the lines cannot all be read (with that exception); so a conversion stopped by what a line says - an unreadable reference, for example - ends normally, without a document. A document is written exactly if no exception is printed.", "quantifier": "all texts given as 80-column files, with and without splitting of radar lines, and all parsers", "why_tests_cant": "the order and completeness of all messages of two passes over any file, whatever stops the first", "anchors": ["Python/ades/mpc80coltoxml.py:mpc80coltoxml", "Python/ades/mpc80coltoxml.py:parseFile", "Python/ades/mpc80coltoxml.py:convertit"]}
{"id": "C56", "title": "A valid submission through 80 columns and back", "statement": "Take a document that is valid for submission, with optical observations that are convertible (C51) and returnable (columns without underscore and hyphen, three-character stations, notes the format knows, times that do not round to the end of the day or to the fractions of C32, angles that do not round to a full minute) and contexts whose header lines are printable, have no more than 80 columns and no commas in names, and in which the submitter's name comes first. Then xmltompc80col writes it without an exception, mpc80coltoxml reads what was written without an exception, and the document it gives has the same blocks in the same order; in each, the context has the same observatory code, submitter, institution, observers, measurers, telescope name and comment lines and nothing else (apart from the unknown design, aperture and detector of a telescope), and the same observations in the same order, each with everything the 80-column format has a place for (as in C44). Institutions before names come back exchanged, names with commas come back as several, and telescopes without names do not come back at all.", "quantifier": "all documents valid for submission with convertible and returnable observations, both precisions, with and without splitting, all parsers that accept ordinary names and printable texts", "why_tests_cant": "the composition of validity, two converters, header lines and packing for documents of any number of blocks, names and observations", "anchors": ["Python/ades/xmltompc80col.py:xmltompc80col", "Python/ades/mpc80coltoxml.py:mpc80coltoxml", "xml/adesmaster.xml"]}
{"id": "C57", "title": "How the conversion of an unacceptable PSV file ends", "statement": "psvtoxml on a file that is not the text of a document raises the exception that belongs to its first wrong line and no other: nothing but blank lines - NameError; a first line that is not '#version=...' - the program's own message (SystemExit); a version that XML does not have - ValueError; then, for the first line that does not continue a document: column names that are those of no observation type - SystemExit; a line whose kind cannot stand there, or a row with more cells than columns - NameError (the message that should have been printed uses an undefined name); '#' or '!' alone - IndexError where such a line can stand and NameError where it cannot; a name or text that XML does not have - ValueError. Every file either converts or fails in exactly one of these ways.", "quantifier": "every list of lines, every set of tables that is well formed, whatever names and texts lxml accepts", "why_tests_cant": "the position and the kind of the first wrong line vary over all files; a test sees one file and one position", "anchors": ["Python/ades/psvtoxml.py:psvtoxml", "Python/ades/psvtoxml.py:parsePSV", "Python/ades/psvtoxml.py:parsePSVLine", "Python/ades/psvtoxml.py:errorAction", "Python/ades/psvtoxml.py:dataAction"]}
{"id": "C58", "title": "What every text in the reference columns stands for, and which references come back", "statement": "unpackRef reads every text as follows and refuses the rest: a text that begins with a digit and that Python's int reads (white space around it, digits of any script, single underscores between them) is that MPC page; '@' and such an integer (also with a sign) is 100000 plus it; '#' and four base-62 digits (anything may follow) is MPC page 110000 plus their number; a small letter and an integer is the MPS page; '~' and four base-62 digits is an MPS page from 260000 on; a text that begins with another character is left as it is. The empty text is an IndexError, a missing or wrong integer a ValueError, too few base-62 digits an IndexError, another character among them a KeyError. packRef fails exactly for texts that begin with MPC or MPS and have no second word (IndexError), one that is not an integer (ValueError), or for MPS one of -270000 or less (IndexError); a page number is packed the same however it is written; every other text is cut to its last five characters or filled with blanks. Packing and unpacking undo each other for exactly the canonical references MPC n and MPS n that the columns hold, outside MPC 110000-199999 and MPS 259999, and for five characters that begin neither like a packed page nor with MPC or MPS.", "quantifier": "every text", "why_tests_cant": "all Unicode texts, and the exact set of texts that survive", "anchors": ["Python/ades/packUtil.py:packRef", "Python/ades/packUtil.py:unpackRef", "Python/ades/packUtil.py:unRadix62_4"]}
{"id": "C59", "title": "White space and digits are those of Python's str", "statement": "Wherever the converters strip, split, match \\s, match \\d or read an integer, white space is exactly the 29 characters that str.isspace has (tab to carriage return, the separators 1C-1F, blank, next line, no-break space, the Unicode spaces), a digit is exactly a character at most nine places after the zero of one of the scripts with decimal digits, its value is that distance, and no character is both; among the ASCII characters only 0-9 are digits.", "quantifier": "every Unicode character", "why_tests_cant": "1.1 million characters; every other property about texts rests on these classes", "anchors": ["Python/ades/psvtoxml.py:PSVXMLConverter", "Python/ades/packUtil.py:unpackRef", "Python/ades/sexVals.py:checkDate", "Python/ades/mpc80coltoxml.py:decode80ColOptical"]}
{"id": "C60", "title": "Exactly which date and position columns are accepted", "statement": "Of all texts of twelve characters the right ascension check accepts exactly the columns of readings with two ASCII digits of hours, minutes and seconds below 60, single blanks, at most three decimals of the seconds (or two of the minutes), and blanks only at the end; the declination check exactly the same with a leading sign that has to be there and at most two decimals of the seconds; everything else is a RuntimeError, never another exception. Of all texts the date check accepts exactly the columns of dates that exist, from the year 1600 on, with one to six digits of the day, except the six-digit ones on which its binary arithmetic fails; with radar's whole seconds it accepts only such columns.", "quantifier": "every text of twelve characters (positions), every text (dates)", "why_tests_cant": "all Unicode texts; the checks are regular expressions plus a comparison of a floating-point round trip", "anchors": ["Python/ades/sexVals.py:checkSexagesimal", "Python/ades/sexVals.py:checkRa", "Python/ades/sexVals.py:checkDec", "Python/ades/sexVals.py:checkDate", "Python/ades/sexVals.py:sexDateToISO", "Python/ades/sexVals.py:isoToSexDate"]}
{"id": "C61", "title": "Exactly which optical lines are decoded, and how the others end", "statement": "A line without newline that is no header line and whose column 15 is an optical code (or S or V) is decoded exactly if it has 80 columns, columns 1-12 stand for a designation and contain only ASCII letters, digits and blanks (or ~ in column 1), column 13 is blank, * or +, column 14 is a note or programme code that the observatory in columns 78-80 may use, columns 16-32 are a date that exists (not one of the 'late' ones with six digits), columns 33-44 a right ascension and columns 45-56 a declination; columns 57-80 may be anything. Every other such line raises RuntimeError, which the run reports and passes over, except that ValueError can be raised for a date in the right form whose month has no such day; for such a line with the other columns in order it is, and then the whole run ends with that exception at that line, whatever follows.", "quantifier": "every line; every callback, every file before and after the line", "why_tests_cant": "all 80-character texts; exact acceptance in both directions", "anchors": ["Python/ades/mpc80coltoxml.py:decode80ColumnDataLine", "Python/ades/mpc80coltoxml.py:parseFile", "Python/ades/sexVals.py:checkDate", "Python/ades/packUtil.py:unpackPackedID"]}
{"id": "C62", "title": "Exactly which second lines are decoded", "statement": "A line without newline that is no header line and has s in column 15 is decoded exactly if it has 80 columns, columns 1-14 and 16-32 are those of an observation (designation, discovery mark, note or programme code, date that exists), column 33 is 1 (kilometres) or 2 (astronomical units), columns 35-45, 47-57 and 59-69 are coordinates - a sign, then a whole part that ends in the fifth (first) place or is longer and begins in the first, then nothing or one point and anything of digits and blanks - and columns 70-72 are blank. One with v in column 15 is decoded exactly if column 33 is 1, columns 34, 45, 56 and 62-71 are blank, columns 35-44, 46-55 and 57-61 contain digits, signs, points and blanks in any order, and columns 78-80 are 247. Every other such line raises RuntimeError (reported and passed over) or, for a date whose month has no such day, ValueError. A line whose column 15 is none of the known codes raises RuntimeError.", "quantifier": "every line", "why_tests_cant": "all 80-character texts; exact acceptance in both directions", "anchors": ["Python/ades/mpc80coltoxml.py:decode80ColumnDataLine", "Python/ades/packUtil.py:packSigned", "Python/ades/packUtil.py:unPackSigned", "Python/ades/adesutility.py:applyPaddingAndJustification"]}
{"id": "C63", "title": "Exactly which radar lines are decoded", "statement": "A line without newline that is no header line and has R in column 15, and whose date is not one of five or six digits from which a whole second of the day is just half a unit of its last digit away, is decoded exactly if it has 80 columns, columns 1-14 are those of an observation (designation, discovery mark, note or programme code), columns 16-32 are a date that exists, with one to six digits, for which a whole second of the same day is nearer than half a unit of the last digit, columns 33-47 and 49-68 contain digits, blanks and points in any order and column 48 is blank or a sign. One with r in column 15 is decoded exactly under the same conditions on columns 1-32 if column 33 is S or C and columns 34-68 contain digits, blanks and points in any order. Nothing is asked of columns 69-80, and the numbers need not be numbers. Every line with R or r in column 15 that is not decoded, ties or not, raises RuntimeError (reported and passed over); or ValueError, and then its date is one whose month has no such day; or OverflowError, and then its date is in the last half second of the year 9999.", "quantifier": "every line", "why_tests_cant": "all 80-character texts, and all dates; exact acceptance in both directions", "anchors": ["Python/ades/mpc80coltoxml.py:decode80ColumnDataLine", "Python/ades/sexVals.py:checkDate", "Python/ades/sexVals.py:sexDateToISO", "Python/ades/packUtil.py:packSigned"]}
