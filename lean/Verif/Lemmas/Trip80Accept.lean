import Verif.Lemmas.Trip80Context
/-!
  Lemmas.Trip80Accept : lxml accepts what comes back of printable texts.
-/
set_option linter.unusedSimpArgs false
namespace Verif.Trip80
open Verif.Xml Verif.Spec Verif.PackUtil Verif.Mpc80
open Verif.Checked (header_mem)
open Verif.Spec.Mpc80 (leafOf nodeOf commaNames headerElem headerElems commentLines Printable Usual Sent Optical Obs pointColumn trim val modeOf catName bandText progText precText fieldOf CoordText Coord RefCols RefText
  bandLetter bandLetters catLetter programLetters Spacecraft Rover noteLetters)

/-! ### printable texts -/

theorem pr_nil : Printable [] := by intro c hc; cases hc
theorem pr_append {a b : Str} (ha : Printable a) (hb : Printable b) : Printable (a ++ b) := by
  intro c hc; rcases List.mem_append.1 hc with h | h
  · exact ha c h
  · exact hb c h
theorem pr_cons {c : Char} {a : Str} (hc : 32 ≤ c.toNat ∧ c.toNat < 0xD800) (ha : Printable a) : Printable (c :: a) := by
  intro x hx; rcases List.mem_cons.1 hx with rfl | h
  · exact hc
  · exact ha x h
theorem pr_sub {a b : Str} (h : ∀ c ∈ a, c ∈ b) (hb : Printable b) : Printable a := fun c hc => hb c (h c hc)
theorem pr_pad {a : Str} (ha : Printable a) (n : Nat) : Printable (List.leftpad n ' ' a) ∧ Printable (List.rightpad n ' ' a) := by
  have hr : ∀ n, Printable (List.replicate n ' ') := fun n c hc => by rw [List.eq_of_mem_replicate hc]; decide
  exact ⟨by unfold List.leftpad; exact pr_append (hr _) ha, by unfold List.rightpad; exact pr_append ha (hr _)⟩
theorem pr_trim {a : Str} (ha : Printable a) : Printable (trim a) := pr_sub (fun c hc => (ToMpc80.trim_sublist a).subset hc) ha
theorem pr_point {w k : Nat} {a : Str} (ha : Printable a) : Printable (pointColumn w k a) := by
  unfold pointColumn
  refine pr_sub (fun c hc => List.mem_of_mem_take hc) (pr_append (pr_pad ?_ w).1 (pr_pad ?_ k).2)
  · exact pr_sub (fun c hc => (List.takeWhile_prefix _).sublist.subset hc) ha
  · exact pr_sub (fun c hc => (List.dropWhile_suffix _).sublist.subset hc) ha
theorem pr_digit : Printable (c! "0123456789") := by unfold Printable; decide
theorem pr_dec (n : Nat) : Printable (Spec.dec n) := pr_sub (Checked.dec_mem n) pr_digit
theorem pr_fixed (k n : Nat) : Printable (fixed k n) := pr_sub (fixed_mem k n) (by unfold Printable; decide)
theorem pr_one {c : Char} (hc : 32 ≤ c.toNat ∧ c.toNat < 0xD800) : Printable [c] := pr_cons hc pr_nil
theorem pr_iso {y m d w : Nat} {t : Str} (h : Printable t) : Printable (isoTime y m d w t) := by
  unfold isoTime
  have one : ∀ c ∈ c! "-T:", Printable [c] := by unfold Printable; decide
  refine pr_append (pr_append (pr_append (pr_append (pr_append (pr_append (pr_append (pr_append (pr_append (pr_append (pr_append (pr_dec _) ?_) (pr_fixed _ _)) ?_) (pr_fixed _ _)) ?_) (pr_fixed _ _)) ?_) (pr_fixed _ _)) ?_) (pr_fixed _ _)) h
  all_goals exact one _ (by decide)
theorem pr_decimal (n k : Nat) : Printable (decimal n k) := by
  unfold decimal
  exact pr_append (pr_append (pr_dec _) (pr_one (by decide))) (pr_fixed _ _)
theorem pr_b62 {k : Nat} (h : k < 62) : 32 ≤ (b62 k).toNat ∧ (b62 k).toNat < 0xD800 := by
  have : ∀ k : Fin 62, 32 ≤ (b62 k).toNat ∧ (b62 k).toNat < 0xD800 := by decide +kernel
  exact this ⟨k, h⟩

theorem pr_mode (c : Char) : Printable (modeOf c) := by
  unfold modeOf
  iterate 12 (refine iteInduction (fun _ => by unfold Printable; decide) fun _ => ?_)
  unfold Printable; decide
theorem pr_prec (r : Sexagesimal) : Printable (precText r) := by
  unfold precText
  repeat' split
  all_goals (unfold Printable; decide)
theorem pr_cat (c : Char) : Printable (catName c) := by
  have h : ∀ x ∈ catCodes, Printable x.2 := by unfold Printable; decide
  unfold catName
  cases e : dictGet catCodes c with
  | none => unfold Printable; decide
  | some v =>
    have : ∃ x ∈ catCodes, x.2 = v := by
      unfold dictGet at e
      obtain ⟨x, hx, rfl⟩ := Option.map_eq_some_iff.1 e
      exact ⟨x, List.mem_reverse.1 (List.mem_of_find?_eq_some hx), rfl⟩
    obtain ⟨x, hx, rfl⟩ := this
    exact h x hx
theorem pr_prog {c : Char} : Printable (progText c) := by
  unfold progText
  have hl : programLetters.length = 94 := by decide
  have := List.idxOf_le_length (a := c) (l := programLetters)
  exact pr_cons (pr_b62 (by omega)) (pr_one (pr_b62 (by omega)))
theorem pr_band {b : Str} (hb : Printable b) : Printable [bandLetter b] := by
  unfold bandLetter
  have hl : ∀ x ∈ bandLetters, 32 ≤ x.2.toNat ∧ x.2.toNat < 0xD800 := by decide
  have hd : ∀ i, 32 ≤ (b.getD i ' ').toNat ∧ (b.getD i ' ').toNat < 0xD800 := by
    intro i
    rw [List.getD_eq_getElem?_getD]
    cases e : b[i]? with
    | none => decide
    | some c => exact hb c (List.mem_of_getElem? e)
  split
  · cases b with
    | nil => exact pr_one (by decide)
    | cons c b => exact pr_one (hb c (by simp))
  · cases e : bandLetters.find? fun x => x.1 = b with
    | none => exact pr_one (hd 1)
    | some x => exact pr_one (hl x (List.mem_of_find?_eq_some e))
theorem pr_catLetter {n : Str} : Printable [catLetter n] := by
  have h : ∀ x ∈ catCodes, 32 ≤ x.1.toNat ∧ x.1.toNat < 0xD800 := by decide
  unfold catLetter
  cases e : catCodes.find? fun x => x.2 = n with
  | none => exact pr_one (by decide)
  | some x => exact pr_one (h x (List.mem_of_find?_eq_some e))

/-! ### headers -/

theorem tag_ok {lx : Lxml} (hu : Usual lx) {t : Str} (h : (match t with | [] => false | c :: t => c.isAlpha && t.all Char.isAlphanum) = true) : lx.tagOk t = true := by
  cases t with
  | nil => cases h
  | cons c t =>
    simp only [Bool.and_eq_true, List.all_eq_true] at h
    exact hu.names c t h.1 h.2

theorem usual_names {lx : Lxml} (hu : Usual lx) : Names lx := by
  constructor
  · exact ⟨tag_ok hu (by decide), fun a ha => by
      obtain rfl : a = (c! "version", c! "2022") := by simpa using ha
      exact ⟨tag_ok hu (by decide), hu.texts _ (by unfold Printable; decide)⟩, by simp⟩
  all_goals exact ⟨tag_ok hu (by decide), by simp, by simp⟩

theorem leaf_ok {lx : Lxml} (hu : Usual lx) {n v : Str} (hn : lx.tagOk n = true) (hv : Printable v) : lx.Accepts (leafOf n v).tag (leafOf n v).text [] := by
  refine ⟨hn, by simp, fun t ht _ => ?_⟩
  have : (if v = [] then none else some v) = some t := ht
  split at this
  · cases this
  · cases this; exact hu.texts _ hv

theorem comma_chars : ∀ {v : Str}, ∀ n ∈ commaNames v, ∀ c ∈ n, c ∈ v
  | [], n, hn, c, hc => by simp [commaNames] at hn; subst hn; cases hc
  | x :: v, n, hn, c, hc => by
    have ih := @comma_chars v
    unfold commaNames at hn
    split at hn
    · simp at hn; subst hn; cases hc
    · rename_i w ws he
      rw [he] at ih
      split at hn
      · rcases List.mem_cons.1 hn with rfl | hn
        · cases hc
        · exact List.mem_cons_of_mem _ (ih n hn c hc)
      · rcases List.mem_cons.1 hn with rfl | hn
        · rcases List.mem_cons.1 hc with rfl | hc
          · exact List.mem_cons_self
          · exact List.mem_cons_of_mem _ (ih w (by simp) c hc)
        · exact List.mem_cons_of_mem _ (ih n (by simp [hn]) c hc)

theorem headers_accepted {lx : Lxml} (hu : Usual lx) {hs : List (Str × Str)} (h : ∀ x ∈ hs, Printable x.2) : HeadersOk lx hs := by
  have names : ∀ t ∈ [c! "observatory", c! "submitter", c! "observers", c! "measurers", c! "telescope", c! "comment", c! "mpcCode", c! "name", c! "institution", c! "design", c! "aperture", c! "detector", c! "line"], lx.tagOk t = true := by
    intro t ht
    refine tag_ok hu ?_
    revert t; decide
  have node : ∀ {t : Str} {l : List Elem}, lx.tagOk t = true → lx.Accepts (nodeOf t l).tag (nodeOf t l).text [] := fun h => ⟨h, by simp, fun t ht => by cases ht⟩
  intro x hx
  change x ∈ (readAs hs).kids at hx
  rw [read_kids] at hx
  rcases List.mem_append.1 hx with hx | hx
  · obtain ⟨k, v, -, -, h3, h4⟩ := header_mem.1 hx
    have hv : Printable v := by
      unfold Spec.Mpc80.firstOf at h3
      obtain ⟨y, hy, rfl⟩ := Option.map_eq_some_iff.1 h3
      exact h y (List.mem_of_find?_eq_some hy)
    unfold headerElem at h4
    split at h4
    · cases h4
      refine ⟨node (names _ (by decide)), fun y hy => ?_⟩
      obtain rfl : y = _ := by simpa [ToMpc80.kids_node] using hy
      exact leaf_ok hu (names _ (by decide)) hv
    split at h4
    · cases h4
      refine ⟨node (names _ (by decide)), fun y hy => ?_⟩
      rw [ToMpc80.kids_node] at hy
      split at hy
      · simp only [List.mem_cons, List.not_mem_nil, or_false] at hy
        rcases hy with rfl | rfl
        · exact leaf_ok hu (names _ (by decide)) (pr_sub (fun c hc => (List.takeWhile_prefix _).sublist.subset hc) hv)
        · exact leaf_ok hu (names _ (by decide)) (pr_sub (fun c hc => (List.dropWhile_suffix _).sublist.subset (List.mem_of_mem_tail hc)) hv)
      · obtain rfl : y = _ := by simpa using hy
        exact leaf_ok hu (names _ (by decide)) hv
    split at h4
    · cases h4
      refine ⟨node (names _ (by decide)), fun y hy => ?_⟩
      obtain ⟨t, ht, rfl⟩ := List.mem_map.1 (by simpa only [ToMpc80.kids_node] using hy)
      exact leaf_ok hu (names _ (by decide)) (pr_sub (comma_chars t ht) hv)
    split at h4
    · cases h4
      refine ⟨node (names _ (by decide)), fun y hy => ?_⟩
      obtain ⟨t, ht, rfl⟩ := List.mem_map.1 (by simpa only [ToMpc80.kids_node] using hy)
      exact leaf_ok hu (names _ (by decide)) (pr_sub (comma_chars t ht) hv)
    split at h4
    · cases h4
      refine ⟨node (names _ (by decide)), fun y hy => ?_⟩
      rw [ToMpc80.kids_node] at hy
      simp only [List.mem_cons, List.not_mem_nil, or_false] at hy
      rcases hy with rfl | rfl | rfl | rfl
      · exact leaf_ok hu (names _ (by decide)) hv
      all_goals exact leaf_ok hu (names _ (by decide)) (by unfold Printable; decide)
    · cases h4
  · split at hx
    · cases hx
    · obtain rfl : x = _ := by simpa using hx
      refine ⟨node (names _ (by decide)), fun y hy => ?_⟩
      obtain ⟨t, ht, rfl⟩ := List.mem_map.1 (by simpa only [ToMpc80.kids_node] using hy)
      refine leaf_ok hu (names _ (by decide)) ?_
      unfold commentLines at ht
      obtain ⟨z, hz, rfl⟩ := List.mem_map.1 ht
      exact h z (List.mem_filter.1 hz).1

/-! ### observations -/

theorem coord_pr {c : Coord} {t : Str} (h : CoordText c t) (ht : Printable t) : Printable c.text := by
  rcases h with rfl | ⟨-, h⟩
  · exact ht
  · rw [← h]; exact pr_cons (by decide) ht

theorem val_mem {n v : Str} {x : Str × Str} (h : x ∈ val n v) : x = (n, v) := by
  unfold val at h
  split at h
  · cases h
  · simpa using h

/-- the fields whose texts come back -/
def kept : List Str := [c! "permID", c! "provID", c! "trkSub", c! "stn", c! "mag", c! "band", c! "disc", c! "notes", c! "ref", c! "pos1", c! "pos2", c! "pos3"]

theorem opt_pr {e : Elem} (hp : ∀ n ∈ kept, ∀ v, fieldOf e n = some v → Printable v) {n : Str} (hn : n ∈ kept) {t : Option Str} (h : fieldOf e n = t) : Printable (t.getD []) := by
  cases t with
  | none => exact pr_nil
  | some v => exact hp n hn v h

theorem obs_accepted {lx : Lxml} (hu : Usual lx) {a : Sent} {pt pr pd : Str} {e : Elem} (hp : ∀ n ∈ kept, ∀ v, fieldOf e n = some v → Printable v) (hi : a.In pt pr pd e)
    {o : Optical} (hl : a.Line o) : (a.obs o).Accepted lx := by
  have names : ∀ t ∈ [c! "permID", c! "provID", c! "trkSub", c! "mode", c! "stn", c! "prog", c! "obsTime", c! "ra", c! "dec", c! "astCat", c! "mag", c! "band", c! "ref", c! "disc", c! "subFrm", c! "subFmt", c! "precTime",
      c! "precRA", c! "precDec", c! "notes", c! "deprecated", c! "sys", c! "ctr", c! "pos1", c! "pos2", c! "pos3"], lx.tagOk t = true := by
    intro t ht
    refine tag_ok hu ?_
    revert t; decide
  have pair : ∀ {n v : Str}, n ∈ [c! "permID", c! "provID", c! "trkSub", c! "mode", c! "stn", c! "prog", c! "obsTime", c! "ra", c! "dec", c! "astCat", c! "mag", c! "band", c! "ref", c! "disc", c! "subFrm", c! "subFmt", c! "precTime",
      c! "precRA", c! "precDec", c! "notes", c! "deprecated", c! "sys", c! "ctr", c! "pos1", c! "pos2", c! "pos3"] → Printable v → lx.tagOk (n, v).1 = true ∧ Printable (n, v).2 := fun h hv => ⟨names _ h, hv⟩
  have hstn : Printable o.stn := by rw [hl.stn]; exact hp _ (by decide) _ hi.stn
  have hmag : Printable o.mag := by rw [hl.mag]; exact pr_point (opt_pr hp (by decide) hi.mag)
  have hband : Printable [o.band] := by rw [hl.band]; exact pr_band (opt_pr hp (by decide) hi.band)
  have hdisc : Printable [o.disc] := by
    rw [hl.disc]
    have := opt_pr hp (by decide) hi.disc
    cases h : a.disc with
    | none => exact pr_one (by decide)
    | some c => rw [h] at this; exact this
  have hnote : Printable [o.note] := by
    rw [hl.note]
    unfold Sent.noteLetter
    have hpl : Printable programLetters := by unfold Printable; decide
    cases h : a.prog with
    | some i =>
      simp only
      rw [List.getD_eq_getElem?_getD]
      cases e : programLetters[i]? with
      | none => exact pr_one (by decide)
      | some c => exact pr_one (hpl c (List.mem_of_getElem? e))
    | none =>
      simp only
      have := opt_pr hp (by decide) hi.notes
      cases hn : (a.notes.getD []).head? with
      | none => exact pr_one (by decide)
      | some c => exact pr_one (this c (List.mem_of_mem_head? hn))
  have href : Printable o.ref.text := by
    rw [hl.ref]
    cases h : a.ref with
    | none => exact pr_trim (by unfold Printable; decide)
    | some r =>
      have := hi.ref
      rw [h] at this
      have := hp _ (by decide) _ this
      cases r with
      | page r => exact this
      | other t => exact pr_trim (pr_pad (pr_sub (fun c hc => List.mem_of_mem_drop hc) this) 5).2
  have hobs : (a.obs o).first = o := by
    unfold Sent.obs; split <;> rfl
  have hplace : ∀ x ∈ (a.obs o).place, lx.tagOk x.1 = true ∧ Printable x.2 := by
    have hpl := hi.place
    unfold Sent.obs
    cases h : a.place with
    | ground => intro x hx; cases hx
    | spacecraft au cx cy cz =>
      rw [h] at hpl
      obtain ⟨-, ⟨t1, c1, f1⟩, ⟨t2, c2, f2⟩, ⟨t3, c3, f3⟩⟩ := hpl
      intro x hx
      simp only [Obs.place, Spacecraft.values, List.mem_cons, List.not_mem_nil, or_false] at hx
      rcases hx with rfl | rfl | rfl | rfl | rfl
      · exact pair (by decide) (by cases au <;> (unfold Printable; simp only [if_true, Bool.false_eq_true, if_false]; decide))
      · exact pair (by decide) (by unfold Printable; decide)
      · exact pair (by decide) (coord_pr c1 (hp _ (by decide) _ f1))
      · exact pair (by decide) (coord_pr c2 (hp _ (by decide) _ f2))
      · exact pair (by decide) (coord_pr c3 (hp _ (by decide) _ f3))
    | rover lon lat alt =>
      rw [h] at hpl
      obtain ⟨-, f1, f2, f3⟩ := hpl
      intro x hx
      simp only [Obs.place, Rover.values, List.mem_append, List.mem_cons, List.not_mem_nil, or_false] at hx
      rcases hx with (((rfl | rfl) | hx) | hx) | hx
      · exact pair (by decide) (by unfold Printable; decide)
      · exact pair (by decide) (by unfold Printable; decide)
      · rw [val_mem hx]; exact pair (by decide) (pr_trim (pr_point (hp _ (by decide) _ f1)))
      · rw [val_mem hx]; exact pair (by decide) (pr_trim (pr_point (hp _ (by decide) _ f2)))
      · rw [val_mem hx]; exact pair (by decide) (pr_trim (pr_pad (hp _ (by decide) _ f3) 5).1)
  rintro e' ⟨time, ra, dec, hread, rfl⟩ y hy
  rw [hobs] at hread hy
  obtain ⟨x, hx, rfl⟩ := List.mem_map.1 (show y ∈ (o.values (a.obs o).place time ra dec).map fun x => leafOf x.1 x.2 from hy)
  have key : lx.tagOk x.1 = true ∧ Printable x.2 := by
    unfold Optical.values at hx
    simp only [List.mem_append, List.mem_cons, List.not_mem_nil, or_false] at hx
    have htime : Printable time := by
      obtain ⟨w, ms, -, -, -, rfl⟩ := hread.time
      exact pr_iso (pr_cons (by decide) (pr_append (pr_fixed _ _) (pr_one (by decide))))
    have hra : Printable ra := by obtain ⟨k, rfl, -⟩ := hread.ra; exact pr_decimal _ _
    have hdec : Printable dec := by
      obtain ⟨k, rfl, -⟩ := hread.dec
      refine pr_append ?_ (pr_decimal _ _)
      split
      · exact pr_one (by decide)
      · exact pr_nil
    rcases hx with (((((((((((((((hx | hx) | hx) | (rfl | rfl)) | hx) | hx) | (rfl | rfl | rfl | rfl)) | hx) | hx) | hx) | hx) | hx) | (rfl | rfl | rfl | rfl)) | hx) | hx))
    · rw [val_mem hx]; exact pair (by decide) (by rw [hl.desig]; exact opt_pr hp (by decide) hi.permID)
    · rw [val_mem hx]; exact pair (by decide) (by rw [hl.desig]; exact opt_pr hp (by decide) hi.provID)
    · rw [val_mem hx]
      refine pair (by decide) ?_
      rw [hl.desig]
      cases h : a.desig.trkText with
      | none => exact pr_nil
      | some t => exact hp _ (by decide) _ (hi.trkSub t h)
    · exact pair (by decide) (pr_mode _)
    · exact pair (by decide) (hstn)
    · exact hplace x hx
    · rw [val_mem hx]
      refine pair (by decide) ?_
      split
      · exact pr_prog
      · exact pr_nil
    · exact pair (by decide) (htime)
    · exact pair (by decide) (hra)
    · exact pair (by decide) (hdec)
    · exact pair (by decide) (pr_cat _)
    · rw [val_mem hx]; exact pair (by decide) (pr_trim hmag)
    · rw [val_mem hx]
      refine pair (by decide) ?_
      unfold bandText
      split
      · exact pr_nil
      · split
        · unfold Printable; decide
        · exact hband
    · rw [val_mem hx]; exact pair (by decide) (href)
    · rw [val_mem hx]; exact pair (by decide) (pr_trim hdisc)
    · rw [val_mem hx]
      refine pair (by decide) ?_
      split
      · unfold Printable; decide
      · exact pr_nil
    · exact pair (by decide) (by unfold Printable; decide)
    · exact pair (by decide) (pr_dec _)
    · exact pair (by decide) (pr_prec _)
    · exact pair (by decide) (pr_prec _)
    · rw [val_mem hx]
      refine pair (by decide) ?_
      split
      · exact pr_nil
      · exact pr_trim hnote
    · rw [val_mem hx]
      refine pair (by decide) ?_
      split
      · unfold Printable; decide
      · exact pr_nil
  exact leaf_ok hu key.1 key.2

end Verif.Trip80
