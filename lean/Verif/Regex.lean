import Verif.Py
/-
  Verif.Regex : Python's `re.match` for the operators used in the repo.

  `run r s` lists all ways `r` can match a prefix of `s`, in the order in which
  CPython's backtracking matcher would try them; `re.match` returns the first.
  A result is (consumed text, remaining text, captured groups).
-/

namespace Verif

/-- captured groups: (group number, text) -/
abbrev Caps := List (Nat × Str)

/-- Regular expressions as used in the repo. Repetition is only ever applied to
    a single character class there, and is greedy. -/
inductive Re
  | eps
  | cls (p : Char → Bool)
  | rep (lo : Nat) (hi : Option Nat) (p : Char → Bool)
  | seq (a b : Re)
  | alt (a b : Re)
  | grp (n : Nat) (r : Re)
  | eos

/-- length of the longest prefix of `p`-characters, at most `hi`. -/
def spanLen (p : Char → Bool) : Option Nat → Str → Nat
  | some 0, _ => 0
  | _, [] => 0
  | none, c :: cs => if p c then spanLen p none cs + 1 else 0
  | some (h + 1), c :: cs => if p c then spanLen p (some h) cs + 1 else 0

/-- `[n, n-1, …, lo]` (empty if `n < lo`): greedy repetition counts. -/
def downTo (lo : Nat) : Nat → List Nat
  | 0 => if lo = 0 then [0] else []
  | n + 1 => if lo ≤ n + 1 then (n + 1) :: downTo lo n else []

/-- all matches in priority order -/
def run : Re → Str → List (Str × Str × Caps)
  | .eps, s => [([], s, [])]
  | .cls _, [] => []
  | .cls p, c :: s => if p c then [([c], s, [])] else []
  | .rep lo hi p, s => (downTo lo (spanLen p hi s)).map fun j => (s.take j, s.drop j, [])
  | .seq a b, s =>
    (run a s).flatMap fun m => (run b m.2.1).map fun k => (m.1 ++ k.1, k.2.1, m.2.2 ++ k.2.2)
  | .alt a b, s => run a s ++ run b s
  | .grp n r, s => (run r s).map fun m => (m.1, m.2.1, (n, m.1) :: m.2.2)
  | .eos, s => if s = [] ∨ s = ['\n'] then [([], s, [])] else []

/-- `re.match`: the captures of the first match, if any. (All patterns of the
    repo start with `^`, which `match` implies anyway.) -/
def reMatch (r : Re) (s : Str) : Option Caps := (run r s).head?.map (·.2.2)

/-- `m.group(n)` -/
def group (k : Caps) (n : Nat) : Option Str := (k.find? fun x => x.1 == n).map (·.2)

/-! ### notation for writing patterns -/

/-- character range -/
def rng (a b : Char) (c : Char) : Bool := decide (a.toNat ≤ c.toNat) && decide (c.toNat ≤ b.toNat)
/-- the single character `a` -/
def ch (a : Char) (c : Char) : Bool := c.toNat == a.toNat
/-- `[0-9A-Za-z]` -/
def alnum (c : Char) : Bool := rng '0' '9' c || rng 'A' 'Z' c || rng 'a' 'z' c
/-- any of the listed characters -/
def oneOf (l : Str) (c : Char) : Bool := l.any fun a => c.toNat == a.toNat

/-- concatenation of a list of patterns -/
def cat : List Re → Re
  | [] => .eps
  | [r] => r
  | r :: rs => .seq r (cat rs)

/-- literal text -/
def lit (s : Str) : Re := cat (s.map fun c => .cls (ch c))

/-- alternatives -/
def alts : List Re → Re
  | [] => .cls fun _ => false
  | [r] => r
  | r :: rs => .alt r (alts rs)

/-- `r?` (greedy) -/
def opt (r : Re) : Re := .alt r .eps
/-- `p{n}` -/
def times (n : Nat) (p : Char → Bool) : Re := .rep n (some n) p
/-- `p*` -/
def star (p : Char → Bool) : Re := .rep 0 none p
/-- `p+` -/
def plus (p : Char → Bool) : Re := .rep 1 none p

end Verif
