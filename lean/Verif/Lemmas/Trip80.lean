import Verif.Lemmas.Checked80Doc
import Verif.Props.Submit80
import Verif.Spec.Trip80
/-!
  Lemmas.Trip80 : valid contexts, and the header lines for them.
-/
namespace Verif.Trip80
open Verif.Xml Verif.Spec Verif.Check Verif.Xsd Verif.Fields Verif.PackUtil Verif.Mpc80 Verif.Checked
open Verif.Submission hiding contentOf
open Verif.Spec.Mpc80 (leafOf nodeOf commaNames headerElem headerElems commentLines firstOf HeadersSound Written)


/-! ### elements in any order, each at most once -/

/-- the name of a particle that stands for at most one element -/
def nameOf : Particle → Option Str
  | .elemRef r _ false => some r
  | .elemDecl n _ _ false => some n
  | _ => none

theorem part_name {S : Schema} {p : Particle} {n : Str} {w : List Letter'} (hp : nameOf p = some n) (h : Matches S (.part p) w) :
    heads w = [some n] ∨ w = [] ∧ p.opt = true := by
  cases p with
  | elemRef r o m =>
    cases m with
    | true => simp [nameOf] at hp
    | false =>
      simp only [nameOf, Option.some.injEq] at hp
      subst hp
      cases h with
      | skip e => exact .inr ⟨rfl, e⟩
      | once h => cases h with | ref _ => exact .inl rfl
      | more e => simp [Particle.many] at e
  | elemDecl r t o m =>
    cases m with
    | true => simp [nameOf] at hp
    | false =>
      simp only [nameOf, Option.some.injEq] at hp
      subst hp
      cases h with
      | skip e => exact .inr ⟨rfl, e⟩
      | once h => cases h with | decl => exact .inl rfl
      | more e => simp [Particle.many] at e
  | _ => simp [nameOf] at hp

theorem all_once {S : Schema} {ps : List Particle} {w : List Letter'} (h : Matches S (.all ps) w) (hp : ∀ p ∈ ps, (nameOf p).isSome = true) (hn : (ps.filterMap nameOf).Nodup) :
    ∃ u : List Str, heads w = u.map some ∧ u.Nodup ∧ (∀ x ∈ u, x ∈ ps.filterMap nameOf) ∧ ∀ p ∈ ps, ∀ n, nameOf p = some n → p.opt = false → n ∈ u := by
  generalize hx : What.all ps = x at h
  induction h generalizing ps with
  | none => cases hx; exact ⟨[], rfl, .nil, by simp, by simp⟩
  | @pick a b p w w' h1 _ _ ih =>
    cases hx
    obtain ⟨n, hn'⟩ := Option.isSome_iff_exists.1 (hp p (by simp))
    rw [List.filterMap_append, List.filterMap_cons_some hn'] at hn
    have hn2 := List.nodup_cons.1 (List.nodup_middle.1 hn)
    rw [← List.filterMap_append] at hn2
    obtain ⟨u, u1, u2, u3, u4⟩ := ih (ps := a ++ b) (fun q hq => hp q (by simp only [List.mem_append, List.mem_cons] at hq ⊢; rcases hq with h | h <;> simp [h])) hn2.2 rfl
    have mem : ∀ x, x ∈ (a ++ b).filterMap nameOf → x ∈ (a ++ p :: b).filterMap nameOf := by
      intro x hx
      rw [List.filterMap_append, List.filterMap_cons_some hn']
      rw [List.filterMap_append] at hx
      simp only [List.mem_append, List.mem_cons] at hx ⊢
      rcases hx with h | h <;> simp [h]
    have need : ∀ q ∈ a ++ p :: b, q = p ∨ q ∈ a ++ b := by
      intro q hq
      simp only [List.mem_append, List.mem_cons] at hq ⊢
      rcases hq with h | h | h <;> simp [h]
    rcases part_name hn' h1 with e | ⟨rfl, e⟩
    · refine ⟨n :: u, ?_, List.nodup_cons.2 ⟨fun h => hn2.1 (u3 _ h), u2⟩, ?_, ?_⟩
      · simp only [heads, List.map_append] at e u1 ⊢
        rw [e, u1]; rfl
      · intro x hx
        rcases List.mem_cons.1 hx with rfl | hx
        · rw [List.filterMap_append, List.filterMap_cons_some hn']; simp
        · exact mem x (u3 x hx)
      · intro q hq m hm ho
        rcases need q hq with rfl | hq
        · rw [hn'] at hm; cases hm; simp
        · exact List.mem_cons_of_mem _ (u4 q hq m hm ho)
    · refine ⟨u, by simpa using u1, u2, fun x hx => mem x (u3 x hx), ?_⟩
      intro q hq m hm ho
      rcases need q hq with rfl | hq
      · rw [e] at ho; cases ho
      · exact u4 q hq m hm ho
  | _ => cases hx

theorem kids_tags {S : Schema} {w : List Letter'} {es : List Elem} {u : List Str} (h : Valid xsd S (.kids w es)) (hu : heads w = u.map some) : es.map Elem.tag = u := by
  have := Check.kids_heads h (u := u) (by rw [hu])
  rw [hu] at this
  exact List.map_injective_iff.2 (fun _ _ => Option.some.inj) this

/-- a type whose elements may come in any order, each at most once -/
theorem node_all {T : Str} {ps : List Particle} {m : Bool} {e : Elem} (hT : plainType T = true) (hc : contentOf T = [.all m ps]) (hm : m = false) (hp : ∀ p ∈ ps, (nameOf p).isSome = true) (hn : (ps.filterMap nameOf).Nodup)
    (h : Valid xsd S (.typed T e)) : (e.kids.map Elem.tag).Nodup ∧ (∀ k ∈ e.kids, k.tag ∈ ps.filterMap nameOf) ∧ ∀ p ∈ ps, ∀ n, nameOf p = some n → p.opt = false → n ∈ e.kids.map Elem.tag := by
  subst hm
  obtain ⟨w, h1, h2, -, -⟩ := node_kids hT h
  rw [hc] at h1
  have h3 := part_once rfl rfl (seq_one h1)
  cases h3 with
  | unordered h3 =>
    obtain ⟨u, u1, u2, u3, u4⟩ := all_once h3 hp hn
    have := kids_tags h2 u1
    rw [this]
    exact ⟨u2, fun k hk => u3 _ (by rw [← this]; exact List.mem_map_of_mem hk), u4⟩

/-! ### valid contexts -/

structure WellContext (ctx : Elem) : Prop where
  once : (ctx.kids.map Elem.tag).Nodup
  needs : ∀ n ∈ [c! "observatory", c! "submitter", c! "measurers", c! "telescope"], n ∈ ctx.kids.map Elem.tag
  cod : ∀ i ∈ ctx.kids, i.tag = c! "observatory" → (i.kids.map Elem.tag).Nodup ∧ c! "mpcCode" ∈ i.kids.map Elem.tag
  con : ∀ i ∈ ctx.kids, i.tag = c! "submitter" → (i.kids.map Elem.tag).Nodup ∧ (∀ k ∈ i.kids, k.tag = c! "name" ∨ k.tag = c! "institution") ∧ c! "name" ∈ i.kids.map Elem.tag
  tel : ∀ i ∈ ctx.kids, i.tag = c! "telescope" → (i.kids.map Elem.tag).Nodup
  names : ∀ i ∈ ctx.kids, i.tag = c! "observers" ∨ i.tag = c! "measurers" → i.kids ≠ [] ∧ ∀ k ∈ i.kids, k.tag = c! "name"

theorem kid_typed {ctx i : Elem} (h : Valid xsd S (.typed (c! "ObsContextType") ctx)) (hi : i ∈ ctx.kids) : Valid xsd S (.typed (typeOf i.tag) i) := by
  obtain ⟨w, -, -, -, h3⟩ := node_kids context_plain h
  obtain ⟨t, ht, hv⟩ := h3 i hi
  have := context_types _ ht
  simp only at this
  rwa [this] at hv

theorem name_type : contentOf (c! "NamesType") = [.seq false [.elemDecl (c! "name") (c! "StringTypeW100") false true]] := by kernel_rfl
theorem cod_type : contentOf (c! "ObservatoryType") = [.all false [.elemDecl (c! "mpcCode") (c! "StationType") false false, .elemDecl (c! "name") (c! "StringTypeW100") true false]] := by kernel_rfl
theorem con_type : contentOf (c! "SubmitterType") = [.all false [.elemDecl (c! "name") (c! "StringTypeW100") false false, .elemDecl (c! "institution") (c! "StringTypeW100") true false]] := by kernel_rfl
theorem tel_type : contentOf (c! "TelescopeType") = [.all false [.elemDecl (c! "name") (c! "StringTypeW100") true false, .elemDecl (c! "design") (c! "StringTypeW25") false false,
  .elemDecl (c! "aperture") (c! "PosDecimalTypeW6") false false, .elemDecl (c! "detector") (c! "StringTypeW25") false false, .elemDecl (c! "fRatio") (c! "PosDecimalTypeW6") true false,
  .elemDecl (c! "filter") (c! "StringTypeW25") true false, .elemDecl (c! "arraySize") (c! "StringTypeW25") true false, .elemDecl (c! "pixelScale") (c! "PosDecimalTypeW6") true false]] := by kernel_rfl

theorem well_context {ctx : Elem} (h : Valid xsd S (.typed (c! "ObsContextType") ctx)) : WellContext ctx := by
  have ctxp : ∀ p ∈ contextParts.map (fun p => Particle.elemRef p.1 p.2 false), (nameOf p).isSome = true := by
    intro p hp; obtain ⟨x, -, rfl⟩ := List.mem_map.1 hp; rfl
  have ctxn : (contextParts.map (fun p => Particle.elemRef p.1 p.2 false)).filterMap nameOf = contextParts.map Prod.fst := by rfl
  obtain ⟨h1, -, h3⟩ := node_all context_plain Checked.context_content rfl ctxp (by rw [ctxn]; decide) h
  refine ⟨h1, ?_, ?_, ?_, ?_, ?_⟩
  · intro n hn
    have hm : (n, false) ∈ contextParts := by
      simp only [List.mem_cons, List.not_mem_nil, or_false] at hn
      rcases hn with rfl | rfl | rfl | rfl <;> decide
    exact h3 (.elemRef n false false) (List.mem_map_of_mem (f := fun p : Str × Bool => Particle.elemRef p.1 p.2 false) hm) n rfl rfl
  · intro i hi e
    have hv := kid_typed h hi
    rw [e, show typeOf (c! "observatory") = c! "ObservatoryType" by kernel_rfl] at hv
    obtain ⟨k1, -, k3⟩ := node_all (by decide +kernel) cod_type rfl (by intro p hp; simp only [List.mem_cons, List.not_mem_nil, or_false] at hp; rcases hp with rfl | rfl <;> rfl) (by decide) hv
    exact ⟨k1, k3 _ (List.mem_cons_self) _ rfl rfl⟩
  · intro i hi e
    have hv := kid_typed h hi
    rw [e, show typeOf (c! "submitter") = c! "SubmitterType" by kernel_rfl] at hv
    obtain ⟨k1, k2, k3⟩ := node_all (by decide +kernel) con_type rfl (by intro p hp; simp only [List.mem_cons, List.not_mem_nil, or_false] at hp; rcases hp with rfl | rfl <;> rfl) (by decide) hv
    exact ⟨k1, fun k hk => by simpa [nameOf] using k2 k hk, k3 _ (List.mem_cons_self) _ rfl rfl⟩
  · intro i hi e
    have hv := kid_typed h hi
    rw [e, show typeOf (c! "telescope") = c! "TelescopeType" by kernel_rfl] at hv
    exact (node_all (by decide +kernel) tel_type rfl (by intro p hp; simp only [List.mem_cons, List.not_mem_nil, or_false] at hp; rcases hp with rfl | rfl | rfl | rfl | rfl | rfl | rfl | rfl <;> rfl) (by decide) hv).1
  · intro i hi e
    have hv := kid_typed h hi
    have ht : typeOf i.tag = c! "NamesType" := by rcases e with e | e <;> rw [e] <;> kernel_rfl
    rw [ht] at hv
    have hT : plainType (c! "NamesType") = true := by decide +kernel
    obtain ⟨n, -, hn⟩ := node_needs (f := 40) (P := fun _ => true) hT hv (by decide +kernel)
    refine ⟨fun e => by rw [e] at hn; simp at hn, fun k hk => ?_⟩
    obtain ⟨w, -, -, -, h3⟩ := node_kids hT hv
    obtain ⟨t, ht, -⟩ := h3 k hk
    have : ∀ p ∈ kidsOf (c! "NamesType"), p.1 = c! "name" := by decide +kernel
    exact this _ ht

end Verif.Trip80
