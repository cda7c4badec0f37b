import Verif.Convert
/-
  Verif.Json : /repo/Python/ades/xmltojson.py, jsontoxml.py and the mapping of the package `xmltodict` that they rest on.

  The two functions hand everything to `xmltodict.parse`, `xmltodict.unparse` and the standard module `json`; their effect is therefore that of
  these packages, which are not part of /repo.  `parse` and `unparse` below follow `_DictSAXHandler` and `_emit` of xmltodict with the options that
  xmltojson.py:22 and jsontoxml.py:22 leave at their defaults (`attr_prefix='@'`, `cdata_key='#text'`, `strip_whitespace=True`, no `force_list`).

  Simplifications.  The text of an `Elem` stands here for all character data of the element, joined in document order (xmltodict keeps no
  other record of where it stood).  The white space that `pretty=True` adds around sub-elements is not represented; it is removed again by the next
  reader.  Comments and processing instructions, which both directions drop, and namespace processing, which is off, are not represented.
-/
namespace Verif.Json
open Verif Verif.Xml

/-- A JSON value as `json.load(..., object_pairs_hook=OrderedDict)` gives it; a number is kept as the text that `str` gives for it. -/
inductive Val
  | null
  | bool (b : Bool)
  | num (shown : Str)
  | text (s : Str)
  | list (l : List Val)
  | dict (d : List (Str × Val))

abbrev Dict := List (Str × Val)

instance : Inhabited Val := ⟨.null⟩

/-- Where the releases of xmltodict differ, or Python's `repr` would be needed: left open, every theorem holds for any choice.
    `shown`: `str(v)` of a list or object; `cdata`: what becomes of a "#text" that is neither null nor a string. -/
structure Corners where
  shown : Val → Str
  cdata : Val → Py (Option Str)

/-- `xmltodict._DictSAXHandler.push_data`: the first value of a key stands alone, the second makes it a list, more are appended -/
def pushData (item : Dict) (key : Str) (data : Val) : Dict :=
  match item with
  | [] => [(key, data)]
  | (k, v) :: rest =>
    if k = key then
      match v with
      | .list l => (k, .list (l ++ [data])) :: rest
      | v => (k, .list [v, data]) :: rest
    else (k, v) :: pushData rest key data

/-- `_DictSAXHandler.startElement`: the attributes come first, their names marked with "@" -/
def attributeItems (a : Attrib) : Dict := a.map fun p => ('@' :: p.1, .text p.2)

/-- `_DictSAXHandler.endElement`: the character data without surrounding white space, None if nothing is left -/
def dataOf (text : Option Str) : Option Str :=
  match text with
  | none => none
  | some t => if strip t = [] then none else some (strip t)

/-- `_DictSAXHandler.endElement`: the value of an element from what was collected for it -/
def close (item : Dict) (data : Option Str) : Val :=
  match item, data with
  | [], none => .null
  | [], some t => .text t
  | item, none => .dict item
  | item, some t => .dict (pushData item (c! "#text") (.text t))

mutual
/-- the value of an element (`startElement` ... `endElement`) -/
def value : Elem → Val
  | .mk _ text attrib kids => close (pushAll (attributeItems attrib) kids) (dataOf text)

/-- the sub-elements, in document order, are pushed into the item of their parent -/
def pushAll (item : Dict) : List Elem → Dict
  | [] => item
  | e :: es => pushAll (pushData item e.tag (value e)) es
end

/-- `xmltodict.parse`: the root is pushed into an empty item -/
def parse (root : Elem) : Dict := pushData [] root.tag (value root)

/-- `_emit`: the text for an attribute (`str(iv)`, jsontoxml.py runs under Python 3) -/
def attributeText (x : Corners) : Val → Str
  | .null => c! "None"
  | .bool b => if b then c! "True" else c! "False"
  | .num s => s
  | .text s => s
  | v => x.shown v

/-- `_emit`: the text that "#text" stands for -/
def cdataText (x : Corners) : Val → Py (Option Str)
  | .null => .ok none
  | .text s => .ok (some s)
  | v => x.cdata v

/-- `content_handler.characters`: an empty text leaves nothing in the document -/
def nonEmpty (s : Str) : Option Str := if s = [] then none else some s

/-- `_emit`: `if ik.startswith(attr_prefix)` -/
def isAttribute (k : Str) : Bool := k.head? = some '@'

/-- `_emit`: the last "#text" of an object -/
def textItem (x : Corners) : Dict → Option Str → Py (Option Str)
  | [], c => .ok c
  | (k, v) :: d, c => if k = c! "#text" then do textItem x d (← cdataText x v) else textItem x d c

/-- `_emit`: the attributes of an object -/
def attributeList (x : Corners) : Dict → Attrib
  | [] => []
  | (k, v) :: d => if k ≠ c! "#text" ∧ isAttribute k then (k.drop 1, attributeText x v) :: attributeList x d else attributeList x d

mutual
/-- `_emit`: one element `key` for a value that is not (or no longer) taken as several -/
def element (x : Corners) (key : Str) : Val → Py Elem
  | .null => .ok (.mk key none [] [])
  | .bool b => .ok (.mk key (some (if b then c! "true" else c! "false")) [] [])
  | .num s => .ok (.mk key (nonEmpty s) [] [])
  | .text s => .ok (.mk key (nonEmpty s) [] [])
  | .list l => .ok (.mk key (nonEmpty (x.shown (.list l))) [] [])
  | .dict d => do
    let text ← textItem x d none
    let kids ← children x d
    return .mk key (text.bind nonEmpty) (attributeList x d) kids

/-- `_emit`: a list stands for several elements of the same name -/
def elements (x : Corners) (key : Str) : Val → Py (List Elem)
  | .list l => each x key l
  | .null => do return [← element x key .null]
  | .bool b => do return [← element x key (.bool b)]
  | .num s => do return [← element x key (.num s)]
  | .text s => do return [← element x key (.text s)]
  | .dict d => do return [← element x key (.dict d)]

def each (x : Corners) (key : Str) : List Val → Py (List Elem)
  | [] => .ok []
  | v :: l => do
    let e ← element x key v
    let es ← each x key l
    return e :: es

/-- `_emit`: the sub-elements of an object, in the order of its keys -/
def children (x : Corners) : Dict → Py (List Elem)
  | [] => .ok []
  | (k, v) :: d =>
    if k = c! "#text" ∨ isAttribute k then children x d
    else do
      let e ← elements x k v
      let es ← children x d
      return e ++ es
end

/-- `xmltodict.unparse`: ValueError unless there is exactly one root; an empty list as root gives a text without any element. -/
def unparse (x : Corners) (d : Dict) : Py (Option Elem) :=
  match d with
  | [(k, .list [])] => let _ := k; .ok none
  | [(k, .list [v])] => do return some (← element x k v)
  | [(_, .list (_ :: _ :: _))] => .error .valueError
  | [(k, v)] => do return some (← element x k v)
  | _ => .error .valueError

/-- xmltojson.py:19-22: `xml` stands for the XML parser, `dump` for `json.dump`.  Both files are open before anything is read. -/
def xmlToJson (xml : Str → Py Elem) (dump : Dict → Str) : Convert.Conv where
  openFirst := true
  inputOpen := true
  run t :=
    match xml t with
    | .error e => (some [], some e)
    | .ok root => (some (dump (parse root)), none)

/-- jsontoxml.py:19-22: `load` stands for `json.load`, `ser` for the XML text that is written -/
def jsonToXml (x : Corners) (load : Str → Py Dict) (ser : Option Elem → Str) : Convert.Conv where
  openFirst := true
  inputOpen := true
  run t :=
    match load t with
    | .error e => (some [], some e)
    | .ok d =>
      match unparse x d with
      | .error e => (some [], some e)
      | .ok e => (some (ser e), none)

end Verif.Json
