import Verif.Xml
/-
  Verif.Spec.Mpc80Doc : the ADES document an 80-column file stands for.
  A file is a sequence of blocks: header lines, then the data lines they belong to.
-/
namespace Verif.Spec.Mpc80
open Verif Verif.Xml

/-- an element with text only (no text if it is empty) -/
def leafOf (tag text : Str) : Elem := .mk tag (if text = [] then none else some text) [] []
/-- an element with children only -/
def nodeOf (tag : Str) (kids : List Elem) : Elem := .mk tag none [] kids

/-- the names in a list separated by commas -/
def commaNames : Str → List Str
  | [] => [[]]
  | c :: s =>
    match commaNames s with
    | [] => [[]]
    | w :: ws => if c = ',' then [] :: w :: ws else (c :: w) :: ws

/-- the element a header line stands for; COM is collected separately; the others (ACK, AC2, NET, NUM, BND, ...) have none -/
def headerElem (keyword value : Str) : Option Elem :=
  if keyword = c! "COD" then some (nodeOf (c! "observatory") [leafOf (c! "mpcCode") value])
  else if keyword = c! "CON" then
    some (nodeOf (c! "submitter")
      (if ',' ∈ value then [leafOf (c! "name") (value.takeWhile (· ≠ ',')), leafOf (c! "institution") ((value.dropWhile (· ≠ ',')).tail)]
       else [leafOf (c! "name") value]))
  else if keyword = c! "OBS" then some (nodeOf (c! "observers") ((commaNames value).map (leafOf (c! "name"))))
  else if keyword = c! "MEA" then some (nodeOf (c! "measurers") ((commaNames value).map (leafOf (c! "name"))))
  else if keyword = c! "TEL" then
    some (nodeOf (c! "telescope")
      [leafOf (c! "name") value, leafOf (c! "design") (c! "Unknown"), leafOf (c! "aperture") (c! "9999"), leafOf (c! "detector") (c! "Unknown")])
  else none

/-- the elements of header lines: of each keyword only the first counts (`seen`: keywords that came before) -/
def headerElems : List Str → List (Str × Str) → List Elem
  | _, [] => []
  | seen, (k, v) :: hs =>
    if k = c! "COM" ∨ k ∈ seen then headerElems seen hs
    else (headerElem k v).toList ++ headerElems (k :: seen) hs

/-- the texts of the COM lines -/
def commentLines (hs : List (Str × Str)) : List Str := (hs.filter (fun h => h.1 = c! "COM")).map (·.2)

/-- obsContext: the header elements, then the comment lines -/
def contextElem (hs : List (Str × Str)) : Elem :=
  nodeOf (c! "obsContext") (headerElems [] hs ++
    if commentLines hs = [] then [] else [nodeOf (c! "comment") ((commentLines hs).map (leafOf (c! "line")))])

/-- a block -/
structure Block where
  headers : List (Str × Str)
  data : List Elem

/-- obsBlock -/
def Block.elem (b : Block) : Elem := nodeOf (c! "obsBlock") [contextElem b.headers, nodeOf (c! "obsData") b.data]

/-- the document with these children -/
def adesDoc (kids : List Elem) : Elem := .mk (c! "ades") none [(c! "version", c! "2022")] kids

end Verif.Spec.Mpc80
