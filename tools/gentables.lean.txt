import Verif.Props.Schema
open Verif Verif.Xml Verif.Spec Verif.Master
def q (s : Str) : String := "c! " ++ (String.ofList s).quote
def lst (l : List String) : String := "[" ++ String.intercalate ", " l ++ "]"
mutual
def pp : Particle → String
  | .elemRef r o m => s!".elemRef ({q r}) {o} {m}"
  | .elemDecl n t o m => s!".elemDecl ({q n}) ({q t}) {o} {m}"
  | .groupRef r o m => s!".groupRef ({q r}) {o} {m}"
  | .seq m ps => s!".seq {m} [{", ".intercalate (ppL ps)}]"
  | .choice m ps => s!".choice {m} [{", ".intercalate (ppL ps)}]"
  | .all m ps => s!".all {m} [{", ".intercalate (ppL ps)}]"
  | .any => ".any"
def ppL : List Particle → List String
  | [] => []
  | p :: ps => pp p :: ppL ps
end
def opt {α} (f : α → String) : Option α → String
  | none => "none"
  | some x => s!"some ({f x})"
def out (S : Schema) (nm : String) : String :=
  let simple := S.simple.map fun p => s!"({q p.1}, ⟨{opt (fun ms => lst (ms.map q)) p.2.union}, {opt (fun r => s!"{q r.1}, {lst (r.2.map fun x => s!"({q x.1}, {q x.2})")}") p.2.restriction}⟩)"
  let complex := S.complex.map fun p => s!"({q p.1}, ⟨{lst (ppL p.2.content)}, {lst (p.2.attributes.map fun a => s!"⟨{q a.name}, {q a.type}, {a.required}⟩")}⟩)"
  let groups := S.groups.map fun p => s!"({q p.1}, {lst (ppL p.2)})"
  let elements := S.elements.map fun p => s!"({q p.1}, {q p.2})"
  let d (n ty : String) (l : List String) := s!"def {nm}_{n} : List (Str × {ty}) := [\n  {",\n  ".intercalate l}]\n\n"
  d "simple" "SimpleType" simple ++ d "complex" "ComplexType" complex ++ d "groups" "List Particle" groups ++ d "elements" "Str" elements ++ s!"def {nm} : Schema := ⟨{nm}_simple, {nm}_complex, {nm}_groups, {nm}_elements⟩\n\n"
def tabs : String := match (tableLines adesmaster 12).map readAdesTables with
  | some (.ok t) =>
    let d (n ty : String) (l : List String) := s!"def {n} : List (Str × {ty}) := [\n  {",\n  ".intercalate l}]\n\n"
    let lists (x : List (Str × List Str)) := x.map fun p => s!"({q p.1}, {lst (p.2.map q)})"
    d "adesAllowed" "List Str" (lists t.allowed) ++ d "adesRequired" "List Str" (lists t.required) ++
    d "adesPsv" "List (Str × Int × Str × Int)" (t.psv.map fun p => s!"({q p.1}, [\n    {",\n    ".intercalate (p.2.map fun x => s!"({q x.1}, {x.2.1}, {q x.2.2.1}, {x.2.2.2})")}])")
  | _ => "ERR"
#eval IO.println (out (schema .general adesmaster) "generalSchema" ++ out (schema .submit adesmaster) "submitSchema" ++ tabs)
