import Verif.Lemmas.PackingRun
import Verif.Lemmas.Fields
import Verif.Props.IsoTime
/-!
  C53: which designations `packTupleID` packs, into which columns, and what becomes of all others.

  `Spec.Packing` describes the texts (`PermName.Is`, `ProvName.Is`, `TrackletIs`) and their columns.
-/
set_option linter.unusedSimpArgs false
namespace Verif
open Verif.PackUtil Verif.Spec Verif.Spec.Packing Verif.Packing

namespace Packing

theorem capital_lower {c : Char} (h : Capital c) : asciiLower c = lower c := lower_capital h

theorem packPerm_ok {w : PermName} {v : Str} (h : w.Is v) (hr : w.InRange) : packPerm (some v) = .ok (some ⟨w.perm.cols, tyOf w.perm.kind, w.perm.fragment?⟩) := by
  rw [packPerm_is h, if_pos hr]

theorem packPerm_refused {v : Str} (h : ¬ ∃ w : PermName, w.Is v ∧ w.InRange) : packPerm (some v) = raiseRT := by
  by_cases hw : ∃ w : PermName, w.Is v
  · obtain ⟨w, hw⟩ := hw
    rw [packPerm_is hw, if_neg (fun hr => h ⟨w, hw, hr⟩)]
  · exact packPerm_isnt fun w hw' => hw ⟨w, hw'⟩

theorem tail_eq {w : PermName} (hf : w.Formed) (hr : w.InRange) (f : Str) (n : Str) (ty : Char) (e : w = .fragment n ty f) :
    (w.perm.cols ++ c! "       ").take 10 ++ (if f.length = 1 then ' ' :: f else f).map asciiLower = w.perm.cols ++ w.perm.tail := by
  subst e
  obtain ⟨-, -, hl, hc⟩ := hf
  have h4 : ∃ a b c d, fixed 4 (value n) = [a, b, c, d] := ⟨_, _, _, _, fixed4 (show value n < 10000 from Nat.lt_succ_of_le hr.2)⟩
  obtain ⟨a, b, c, d, h4⟩ := h4
  have hm : f.map asciiLower = f.map lower := List.map_congr_left fun c h => lower_capital (hc c h)
  simp only [PermName.perm, Perm.cols, Perm.tail, h4]
  rcases hl with h | h
  · rw [if_pos h]
    simp only [List.map_cons, hm, List.leftpad, List.length_map, h]
    rfl
  · rw [if_neg (by omega), hm]
    simp only [List.leftpad, List.length_map, h]
    rfl

theorem trkCls_iff {c : Char} : trkCls c = true ↔ c ∈ trkChars := by
  constructor
  · intro h
    have hlt : c.toNat < 128 := by
      simp only [trkCls, ch, PackUtil.trkCls, Verif.alnum, rng, Bool.or_eq_true, Bool.and_eq_true, decide_eq_true_eq, beq_iff_eq] at h
      rcases h with h | (h | h) | h
      · rw [h]; decide
      · exact lt_of_le_of_lt h.2 (by decide)
      · exact lt_of_le_of_lt h.2 (by decide)
      · exact lt_of_le_of_lt h.2 (by decide)
    have hall : ∀ n : Fin 128, trkCls (Char.ofNat n) = true → Char.ofNat n ∈ trkChars := by decide +kernel
    have := hall ⟨c.toNat, hlt⟩
    simp only [Char.ofNat_toNat] at this
    exact this h
  · intro h
    have : trkChars.all trkCls = true := by decide +kernel
    exact List.all_eq_true.1 this c h

theorem trk_some {v : Str} {m : Caps} (h : reMatch trksubRegex v = some m) : ∃ t e, t.length ≤ 8 ∧ (∀ c ∈ t, c ∈ trkChars) ∧ End e ∧ v = t ++ e ∧ m = [(1, t)] := by
  obtain ⟨c, t, rfl, hp⟩ := reMatch_parse h
  simp only [trksubRegex, cat, Re.parse] at hp
  obtain ⟨n, _, _, _, ⟨_, ⟨⟨a1, a2, a3⟩, rfl⟩, rfl⟩, ⟨rfl, rfl, he⟩, rfl, rfl⟩ := hp
  exact ⟨n, t, a2 8 rfl, fun c hc => trkCls_iff.1 (a3 c hc), he, by simp, by simp⟩

theorem trk_match {v t : Str} (h : TrackletIs t v) : reMatch trksubRegex v = some [(1, t)] := by
  obtain ⟨⟨h1, h2, h3⟩, e, he, rfl⟩ := h
  have : ∃ m, reMatch trksubRegex (t ++ e) = some m := by
    refine parse_some (k := [(1, t)]) ?_
    simp only [trksubRegex, cat, Re.parse]
    exact ⟨t, [], [(1, t)], [], ⟨[], ⟨⟨by omega, fun _ e => by injection e; omega, fun c hc => trkCls_iff.2 (h3 c hc)⟩, rfl⟩, rfl⟩, ⟨rfl, rfl, he⟩, by simp, rfl⟩
  obtain ⟨m, hm⟩ := this
  obtain ⟨t', e', -, h3', he', hv, rfl⟩ := trk_some hm
  have := (split_unique (p := trkCls) (fun c hc => trkCls_iff.2 (h3 c hc)) (fun c hc => trkCls_iff.2 (h3' c hc)) (end_head he (by decide)) (end_head he' (by decide)) hv).1
  subst this
  exact hm

end Packing

/-! ### a number -/

/-- **C53.** A permanent designation in range is packed; what the observer calls the object does not matter. -/
theorem C53_perm {w : PermName} {v : Str} (h : w.Is v) (hr : w.InRange) (t : Option Str) : packTupleID ⟨some v, none, t⟩ = .ok (w.perm.cols ++ w.perm.tail) := by
  rw [ToMpc80.pack_beside _ _ _ (.inl (by simp))]
  simp only [packTupleID, packPerm_ok h hr, packProv, packTrk, bind, Except.bind, pure, Except.pure, truthy]
  cases w with
  | fragment n ty f =>
    have := tail_eq h.1 hr f n ty rfl
    simp only [PermName.perm, Perm.kind, tyOf, Perm.fragment?] at this ⊢
    simp only [if_true, if_pos]
    exact congrArg Except.ok this
  | minor n => rfl
  | comet n ty => rfl
  | satellite p n => rfl

/-- **C53.** Any other text instead of a permanent designation is refused, whatever is beside it. -/
theorem C53_perm_refused {v : Str} (h : ¬ ∃ w : PermName, w.Is v ∧ w.InRange) (q t : Option Str) : packTupleID ⟨some v, q, t⟩ = raiseRT := by
  simp only [packTupleID, packPerm_refused h, raiseRT, bind, Except.bind]

/-- a number in Arabic-Indic digits, with zeros in front, and a line feed after it -/
example : packTupleID ⟨some (c! "00٩٩٩٤٢\n"), none, none⟩ = .ok (c! "99942       ") := by
  have h : (PermName.minor (c! "00٩٩٩٤٢")).Is (c! "00٩٩٩٤٢\n") := ⟨⟨by decide, by decide +kernel⟩, c! "\n", .inr rfl, rfl⟩
  have hv : value (c! "00٩٩٩٤٢") = 99942 := by decide +kernel
  rw [C53_perm h (by rw [PermName.InRange, hv]; decide)]
  simp only [PermName.perm, hv]
  decide +kernel

/-! ### a provisional designation -/

/-- **C53.** A provisional designation is packed, or refused with the exception that `ProvName.cols` tells. -/
theorem C53_prov {w : ProvName} {v : Str} (h : w.Is v) (t : Option Str) : packTupleID ⟨none, some v, t⟩ = w.cols.map (c! "    " ++ ·) := by
  rw [ToMpc80.pack_beside _ _ _ (.inr (by simp))]
  simp only [packTupleID, packProv_is h, packPerm, packTrk, bind, Except.bind, pure, Except.pure, halfOf]
  cases w.cols <;> rfl

/-- **C53.** Any other text instead of a provisional designation is refused, whatever is beside it. -/
theorem C53_prov_refused {v : Str} (h : ∀ w : ProvName, ¬ w.Is v) (p t : Option Str) : packTupleID ⟨p, some v, t⟩ = raiseRT := by
  simp only [packTupleID, packProv_isnt h, bind, Except.bind]
  cases p with
  | none => rfl
  | some p =>
    by_cases hw : ∃ w : PermName, w.Is p ∧ w.InRange
    · obtain ⟨w, hw, hr⟩ := hw
      rw [packPerm_ok hw hr]; rfl
    · rw [packPerm_refused hw]; rfl

/-- the year 2062 has no letter in the designations with a count above 619; fragments without a count -/
example : packTupleID ⟨none, some (c! "2062 AA620"), none⟩ = .error .indexError := by
  have h : (ProvName.minor (c! "2062") 'A' 'A' (c! "620")).Is (c! "2062 AA620") :=
    ⟨⟨⟨rfl, by decide +kernel⟩, by unfold HalfMonth; decide, by unfold Second; decide, by unfold Digits0; decide +kernel⟩, [], .inl rfl, rfl⟩
  rw [C53_prov h]; decide +kernel
example : packTupleID ⟨none, some (c! "C/1997 B-A"), some (c! "aa")⟩ = .error .valueError := by
  have h : (ProvName.fragment 'C' (c! "1997") 'B' [] 'A').Is (c! "C/1997 B-A") :=
    ⟨⟨by decide, ⟨rfl, by decide +kernel⟩, by unfold Capital; decide, by unfold Digits0; decide +kernel, by unfold Capital; decide⟩, [], .inl rfl, rfl⟩
  rw [C53_prov h]; decide +kernel

/-! ### both -/

/-- **C53.** Both designations: the permanent one has to be in range and the provisional one to have columns; then they have to agree. -/
theorem C53_both {w : PermName} {v : Str} (h : w.Is v) (hr : w.InRange) {u : ProvName} {x : Str} (hu : u.Is x) (t : Option Str) :
    (∀ e, u.cols = .error e → packTupleID ⟨some v, some x, t⟩ = .error e)
    ∧ ∀ c, u.cols = .ok c → (Agree w u → packTupleID ⟨some v, some x, t⟩ = .ok (w.perm.cols ++ c.drop 1)) ∧ (¬ Agree w u → packTupleID ⟨some v, some x, t⟩ = raiseRT) := by
  rw [ToMpc80.pack_beside _ _ _ (.inl (by simp))]
  simp only [packTupleID, packProv_is hu, packPerm_ok h hr, packTrk, bind, Except.bind, pure, Except.pure, halfOf]
  refine ⟨fun e he => by rw [he]; rfl, fun c hc => ?_⟩
  rw [hc]
  simp only [Except.map]
  have ty : tyOf w.perm.kind = tyOf u.kind ↔ w.perm.kind = u.kind := by cases w.perm.kind <;> cases u.kind <;> decide
  have frag : w.perm.kind = u.kind → w.perm.kind ≠ .cometFragment → w.perm.fragment? = u.fragment? := by
    intro he hn
    have h1 : w.perm.fragment? = [] := by cases w <;> first | rfl | exact absurd rfl hn
    have h2 : u.fragment? = [] := by cases u <;> first | rfl | exact absurd he hn
    rw [h1, h2]
  have tyF : tyOf w.perm.kind = .F ↔ w.perm.kind = .cometFragment := by cases w.perm.kind <;> decide
  constructor
  · rintro ⟨h1, h2⟩
    rw [if_neg (by rw [ne_eq, ty]; simp [h1]), if_neg (by simp [h2])]
  · intro hn
    by_cases h1 : w.perm.kind = u.kind
    · rw [if_neg (by rw [ne_eq, ty]; simp [h1])]
      have hk : w.perm.kind = .cometFragment := by
        by_contra hk
        exact hn ⟨h1, frag h1 hk⟩
      rw [if_pos ⟨tyF.2 hk, fun h2 => hn ⟨h1, h2⟩⟩]
    · rw [if_pos (by rw [ne_eq, ty]; exact h1)]

example : packTupleID ⟨some (c! "99942"), some (c! "2004 MN4"), some (c! "x")⟩ = .ok (c! "99942K04M04N") := by
  have h : (PermName.minor (c! "99942")).Is (c! "99942") := ⟨⟨by decide, by decide +kernel⟩, [], .inl rfl, rfl⟩
  have hv : value (c! "99942") = 99942 := by decide +kernel
  have hu : (ProvName.minor (c! "2004") 'M' 'N' (c! "4")).Is (c! "2004 MN4") :=
    ⟨⟨⟨rfl, by decide +kernel⟩, by unfold HalfMonth; decide, by unfold Second; decide, by unfold Digits0; decide +kernel⟩, [], .inl rfl, rfl⟩
  rw [((C53_both h (by rw [PermName.InRange, hv]; decide) hu (some (c! "x"))).2 (c! " K04M04N") (by decide +kernel)).1 ⟨rfl, rfl⟩]
  simp only [PermName.perm, hv]
  decide +kernel

/-! ### a name of the observer's own -/

/-- **C53.** A name of one to eight letters, digits and dashes is packed: its last seven characters. -/
theorem C53_tracklet {t v : Str} (h : TrackletIs t v) : packTupleID ⟨none, none, some v⟩ = .ok (c! "     " ++ trackletCols t) := by
  obtain ⟨h1, h2, h3⟩ := h.1
  have hm := trk_match h
  have hg : group [(1, t)] 1 = some t := rfl
  simp only [packTupleID, packPerm, packProv, packTrk, hm, hg, bind, Except.bind, pure, Except.pure, Option.getD_some, trackletCols]
  by_cases h8 : t.length > 7
  · have ht : truthy (some (t.drop 1)) = true := by
      match t, h8 with
      | _ :: _ :: _, _ => rfl
    have hl : (t.drop 1).length = 7 := by simp; omega
    rw [if_pos h8]
    simp only [ht, if_true, Option.getD_some, ljust, show t.length - 7 = 1 by omega, List.length_append, hl]
    simp
  · have ht : truthy (some t) = true := by
      match t, h1 with
      | _ :: _, _ => rfl
    rw [if_neg h8]
    simp only [ht, if_true, Option.getD_some, ljust, show t.length - 7 = 0 by omega, List.drop_zero, List.length_append, List.append_assoc]
    congr 4
    simp only [List.length_cons, List.length_nil]
    omega

/-- **C53.** Any other text is refused, and so is a triple of nothing. -/
theorem C53_tracklet_refused {v : Option Str} (h : ∀ x, v = some x → ∀ t, ¬ TrackletIs t x) : packTupleID ⟨none, none, v⟩ = raiseRT := by
  cases v with
  | none => rfl
  | some v =>
    simp only [packTupleID, packPerm, packProv, packTrk, bind, Except.bind, pure, Except.pure]
    cases hm : reMatch trksubRegex v with
    | none => rfl
    | some m =>
      obtain ⟨t, e, h1, h2, he, hv, rfl⟩ := trk_some hm
      cases t with
      | nil => rfl
      | cons a t => exact absurd ⟨⟨by simp, h1, h2⟩, e, he, hv⟩ (h v rfl (a :: t))

example : packTupleID ⟨none, none, some (c! "12345678")⟩ = .ok (c! "     2345678") :=
  C53_tracklet (t := c! "12345678") ⟨⟨by decide, by decide, by decide +kernel⟩, [], .inl rfl, rfl⟩
/-- an underscore, which the schema allows in such names -/
theorem C53_underscore : TrackletName (c! "a_b") ∧ packTupleID ⟨none, none, some (c! "a_b")⟩ = raiseRT := by
  refine ⟨⟨by decide, by decide, ?_⟩, C53_tracklet_refused ?_⟩
  · unfold Alnum; decide
  · rintro _ ⟨⟩ t ⟨⟨-, -, h3⟩, e, he, hv⟩
    have : '_' ∈ t ∨ '_' ∈ e := List.mem_append.1 (hv ▸ (by decide : '_' ∈ (c! "a_b")))
    rcases this with h | h
    · exact absurd (h3 _ h) (by decide)
    · rcases he with rfl | rfl <;> simp at h

/-! ### all triples -/

/-- **C53.** Exactly these triples are packed, and into these columns. -/
theorem C53_packs {p q t : Option Str} {columns : Str} : packTupleID ⟨p, q, t⟩ = .ok columns ↔ Packs p q t columns := by
  constructor
  · intro h
    cases p with
    | some v =>
      by_cases hw : ∃ w : PermName, w.Is v ∧ w.InRange
      · obtain ⟨w, hw, hr⟩ := hw
        cases q with
        | none =>
          rw [C53_perm hw hr] at h
          injection h with h
          exact .inl ⟨v, w, rfl, rfl, hw, hr, h.symm⟩
        | some x =>
          by_cases hu : ∃ u : ProvName, u.Is x
          · obtain ⟨u, hu⟩ := hu
            cases hc : u.cols with
            | error e => rw [(C53_both hw hr hu t).1 e hc] at h; cases h
            | ok c =>
              by_cases ha : Agree w u
              · rw [((C53_both hw hr hu t).2 c hc).1 ha] at h
                injection h with h
                exact .inr (.inr (.inl ⟨v, x, w, u, c, rfl, rfl, hw, hr, hu, hc, ha, h.symm⟩))
              · rw [((C53_both hw hr hu t).2 c hc).2 ha] at h; cases h
          · rw [C53_prov_refused (fun u hu' => hu ⟨u, hu'⟩)] at h; cases h
      · rw [C53_perm_refused hw] at h; cases h
    | none =>
      cases q with
      | some x =>
        by_cases hu : ∃ u : ProvName, u.Is x
        · obtain ⟨u, hu⟩ := hu
          rw [C53_prov hu] at h
          cases hc : u.cols with
          | error e => rw [hc] at h; cases h
          | ok c =>
            rw [hc] at h
            injection h with h
            exact .inr (.inl ⟨x, u, c, rfl, rfl, hu, hc, h.symm⟩)
        · rw [C53_prov_refused (fun u hu' => hu ⟨u, hu'⟩)] at h; cases h
      | none =>
        by_cases hs : ∃ x s, t = some x ∧ TrackletIs s x
        · obtain ⟨x, s, rfl, hs⟩ := hs
          rw [C53_tracklet hs] at h
          injection h with h
          exact .inr (.inr (.inr ⟨x, s, rfl, rfl, rfl, hs, h.symm⟩))
        · rw [C53_tracklet_refused (fun x hx s hs' => hs ⟨x, s, hx, hs'⟩)] at h; cases h
  · rintro (⟨v, w, rfl, rfl, hw, hr, rfl⟩ | ⟨v, w, c, rfl, rfl, hw, hc, rfl⟩ | ⟨v, x, w, u, c, rfl, rfl, hw, hr, hu, hc, ha, rfl⟩ | ⟨v, s, rfl, rfl, rfl, hs, rfl⟩)
    · exact C53_perm hw hr t
    · rw [C53_prov hw, hc]; rfl
    · exact ((C53_both hw hr hu t).2 c hc).1 ha
    · exact C53_tracklet hs

/-- a survey's designation -/
example : Packs none (some (c! "2040 P-L")) none (c! "     PLS2040") :=
  .inr (.inl ⟨_, .survey (c! "2040") .PL, c! " PLS2040", rfl, rfl, ⟨⟨rfl, by decide +kernel⟩, [], .inl rfl, rfl⟩, by decide +kernel, rfl⟩)

/-! ### valid designations -/

/-- **C53.** A permanent designation of the schema is one that has columns if its number is in range, or it is one of the two kinds without columns, which are refused. -/
theorem C53_valid_perm {v : Str} (h : PermanentName v) :
    (∃ w : PermName, w.Formed ∧ v = w.text) ∨ PermWithout v := by
  obtain ⟨-, h⟩ := h
  rcases h with ⟨n, hN, h⟩ | ⟨p, n, hp, hN, rfl⟩ | ⟨a, n, -, -, rfl⟩
  · obtain ⟨n1, -, n2⟩ := hN
    have hn : Number n := number_of n1 n2
    rcases h with rfl | ⟨k, hk, rfl | ⟨f, f1, f2, f3, rfl⟩⟩
    · exact .inl ⟨.minor _, hn, rfl⟩
    · exact .inl ⟨.comet n k, ⟨hn, by simp only [List.mem_cons, List.not_mem_nil, or_false]; tauto⟩, rfl⟩
    · exact .inl ⟨.fragment n k f, ⟨hn, by simp only [List.mem_cons, List.not_mem_nil, or_false]; tauto, by omega, f3⟩, by simp [PermName.text]⟩
  · obtain ⟨n1, -, n2⟩ := hN
    have hn : Number n := number_of n1 n2
    simp only [List.mem_cons, List.not_mem_nil, or_false] at hp
    rcases hp with rfl | rfl | rfl | rfl | rfl
    · exact .inr (.inl ⟨n, rfl⟩)
    · exact .inl ⟨.satellite .jupiter n, hn, rfl⟩
    · exact .inl ⟨.satellite .saturn n, hn, rfl⟩
    · exact .inl ⟨.satellite .uranus n, hn, rfl⟩
    · exact .inl ⟨.satellite .neptune n, hn, rfl⟩
  · exact .inr (.inr ⟨_, rfl⟩)

theorem C53_perm_without {v : Str} (h : PermWithout v) (q t : Option Str) : packTupleID ⟨some v, q, t⟩ = raiseRT := by
  refine C53_perm_refused ?_ q t
  rintro ⟨w, ⟨hf, e, he, hv⟩, -⟩
  have num : ∀ {n s : Str} {c : Char} {r : Str}, Number n → isDec c = false → n ++ s ≠ c :: r := by
    intro n s c r hn hc he
    match n, hn with
    | a :: n, hn =>
      simp only [List.cons_append, List.cons.injEq] at he
      have := hn.2 a List.mem_cons_self
      rw [he.1, hc] at this; cases this
  have hd : ∃ c r, v = c :: r ∧ isDec c = false ∧ c ∉ ['J', 'S', 'U', 'N'] := by
    rcases h with ⟨n, rfl⟩ | ⟨r, rfl⟩
    · exact ⟨'M', _, rfl, by decide, by decide⟩
    · exact ⟨'(', _, rfl, by decide, by decide⟩
  obtain ⟨c, r, rfl, hc, hj⟩ := hd
  cases w with
  | minor n => exact num hf hc hv.symm
  | comet n ty => simp only [PermName.text, List.append_assoc] at hv; exact num hf.1 hc hv.symm
  | fragment n ty f => simp only [PermName.text, List.append_assoc] at hv; exact num hf.1 hc hv.symm
  | satellite p n =>
    have h1 : c = p.letter := by
      cases p <;> simp only [PermName.text, Planet.name, List.cons_append, List.cons.injEq] at hv <;> exact hv.1
    rw [h1] at hj
    cases p <;> exact absurd hj (by decide)

/-- **C53.** A provisional designation of the schema is one that `C53_prov` is about, or it is without columns and refused. -/
theorem C53_valid_prov {v : Str} (h : ProvisionalName v) : (∃ w : ProvName, w.Formed ∧ v = w.text) ∨ ProvWithout v := by
  obtain ⟨-, y, ⟨y1, y2, y3⟩, h⟩ := h
  have hy : Year y := ⟨by have := y2 4 rfl; omega, y3⟩
  rcases h with ⟨a, b, n, ha, hb, ⟨-, -, n2⟩, rfl⟩ | ⟨s, hs, rfl⟩ | ⟨k, l, n, f, hk, l1, l2, l3, ⟨-, -, n2⟩, hf, rfl⟩ | ⟨p, n, ⟨n1, -, n2⟩, rfl, hp⟩
  · exact .inl ⟨.minor y a b n, ⟨hy, ha, hb, n2⟩, by simp [ProvName.text]⟩
  · simp only [List.mem_cons, List.not_mem_nil, or_false] at hs
    rcases hs with rfl | rfl | rfl | rfl
    · exact .inl ⟨.survey y .PL, hy, by simp [ProvName.text, Survey.letter, Survey.digit]⟩
    · exact .inl ⟨.survey y .T1, hy, by simp [ProvName.text, Survey.letter, Survey.digit]⟩
    · exact .inl ⟨.survey y .T2, hy, by simp [ProvName.text, Survey.letter, Survey.digit]⟩
    · exact .inl ⟨.survey y .T3, hy, by simp [ProvName.text, Survey.letter, Survey.digit]⟩
  · have hl : (∃ a, l = [a] ∧ Capital a) ∨ ∃ a b, l = [a, b] ∧ Capital a ∧ Capital b := by
      match l, l1, l2 with
      | [a], _, _ => exact .inl ⟨a, rfl, l3 a (by simp)⟩
      | [a, b], _, _ => exact .inr ⟨a, b, rfl, l3 a (by simp), l3 b (by simp)⟩
    have hk' : k ∈ ['A', 'C', 'D', 'P', 'X'] := by
      simp only [List.mem_cons, List.not_mem_nil, or_false] at hk ⊢; tauto
    rcases hf with rfl | ⟨c, hc, rfl⟩
    · rcases hl with ⟨a, rfl, ha⟩ | ⟨a, b, rfl, ha, hb⟩
      · exact .inl ⟨.comet k y a none n, ⟨hk', hy, ha, by simp, n2⟩, by simp [ProvName.text]⟩
      · exact .inl ⟨.comet k y a (some b) n, ⟨hk', hy, ha, by simpa using hb, n2⟩, by simp [ProvName.text]⟩
    · by_cases hA : l.length = 1 ∧ k ≠ 'A'
      · rcases hl with ⟨a, rfl, ha⟩ | ⟨a, b, rfl, ha, hb⟩
        · refine .inl ⟨.fragment k y a n c, ⟨?_, hy, ha, n2, hc⟩, by simp [ProvName.text]⟩
          have := hA.2
          simp only [List.mem_cons, List.not_mem_nil, or_false] at hk' ⊢; tauto
        · simp at hA
      · refine .inr (.inl ⟨k, y, l, n, c, by simpa using hk, hy, l3, ?_, n2, hc, by simp⟩)
        by_cases h1 : l.length = 1
        · exact .inl ⟨h1, by by_contra hne; exact hA ⟨h1, hne⟩⟩
        · exact .inr (by omega)
  · have hn : Number n := number_of n1 n2
    rcases hp with ⟨c, hc, rfl⟩ | ⟨a, -, rfl⟩ | ⟨z, h, s, m, -, -, -, -, rfl⟩
    · simp only [List.mem_cons, List.not_mem_nil, or_false] at hc
      rcases hc with rfl | rfl | rfl | rfl | rfl
      · exact .inr (.inr ⟨y, 'M', ' ' :: n, hy, .inl rfl, by simp⟩)
      · exact .inl ⟨.satellite y .jupiter n, ⟨hy, hn⟩, by simp [ProvName.text, Planet.letter]⟩
      · exact .inl ⟨.satellite y .saturn n, ⟨hy, hn⟩, by simp [ProvName.text, Planet.letter]⟩
      · exact .inl ⟨.satellite y .uranus n, ⟨hy, hn⟩, by simp [ProvName.text, Planet.letter]⟩
      · exact .inl ⟨.satellite y .neptune n, ⟨hy, hn⟩, by simp [ProvName.text, Planet.letter]⟩
    · exact .inr (.inr ⟨y, '(', a ++ [')'] ++ ' ' :: n, hy, .inr rfl, by simp⟩)
    · exact .inr (.inr ⟨y, '(', z ++ ' ' :: h :: s ++ m ++ [')'] ++ ' ' :: n, hy, .inr rfl, by simp⟩)

theorem C53_prov_without {v : Str} (h : ProvWithout v) (p t : Option Str) : packTupleID ⟨p, some v, t⟩ = raiseRT := by
  refine C53_prov_refused ?_ p t
  rintro w ⟨hf, e, he, hv⟩
  rcases h with ⟨k, y, l, n, c, hk, hy, hl, hkl, hn, hc, rfl⟩ | ⟨y, q, r, hy, hq, rfl⟩
  · have hkS : k ≠ 'S' := by rintro rfl; exact absurd hk (by decide)
    cases w with
    | minor y' half order n' =>
      obtain ⟨a, b, c', d, rfl, ha, hb, -⟩ := year_chars hf.1
      simp only [ProvName.text, List.append_assoc, List.cons_append, List.nil_append, List.cons.injEq] at hv
      exact second_notDec hb hv.2.1.symm
    | survey n' s =>
      obtain ⟨a, b, c', d, rfl, ha, hb, -⟩ := year_chars (show Year n' from hf)
      simp only [ProvName.text, List.append_assoc, List.cons_append, List.nil_append, List.cons.injEq] at hv
      exact second_notDec hb hv.2.1.symm
    | comet ty y' half order n' =>
      obtain ⟨ht, hy', hh, ho, hn'⟩ := hf
      have hm : '-' ∈ (ProvName.comet ty y' half order n').text ++ e := by
        rw [← hv]; simp
      have hdig : ∀ {s : Str}, (∀ c ∈ s, isDec c = true) → '-' ∉ s := fun hs hm => absurd (hs _ hm) (by decide)
      simp only [ProvName.text, List.append_assoc, List.mem_append, List.mem_cons, List.not_mem_nil, or_false, Option.mem_toList] at hm
      rcases hm with (h | h) | h | (h | h) | h | h | h
      · rw [← h] at ht; exact absurd ht (by decide)
      · exact absurd h (by decide)
      · exact hdig hy'.2 h
      · exact absurd h (by decide)
      · rw [← h] at hh; exact absurd hh (by unfold Capital; decide)
      · exact absurd (ho _ h) (by unfold Capital; decide)
      · exact hdig hn' h
      · rcases he with rfl | rfl <;> simp at h
    | fragment ty y' half n' f' =>
      obtain ⟨ht, hy', hh, hn', hf'⟩ := hf
      obtain ⟨a, b, c', d, rfl, -⟩ := year_chars hy
      obtain ⟨a', b', c'', d', rfl, -⟩ := year_chars hy'
      simp only [ProvName.text, List.append_assoc, List.cons_append, List.nil_append, List.cons.injEq, true_and] at hv
      obtain ⟨rfl, -, -, -, -, hv⟩ := hv
      rcases hkl with ⟨-, rfl⟩ | h2
      · exact absurd ht (by decide)
      · match l, h2 with
        | [x, z], _ =>
          simp only [List.cons_append, List.nil_append, List.cons.injEq] at hv
          have hz := hl z (by simp)
          cases n' with
          | nil =>
            simp only [List.nil_append, List.cons.injEq] at hv
            exact absurd hv.2.1 (capital_ne hz (by decide))
          | cons g n' =>
            simp only [List.cons_append, List.cons.injEq] at hv
            have := hn' g List.mem_cons_self
            rw [← hv.2.1, capital_notDec hz] at this; cases this
    | satellite y' p' n' =>
      simp only [ProvName.text, List.append_assoc, List.cons_append, List.nil_append, List.cons.injEq] at hv
      exact hkS hv.1
  · obtain ⟨a, b, c, d, rfl, -⟩ := year_chars hy
    cases w with
    | minor y' half order n' =>
      obtain ⟨a, b, c', d, rfl, ha, hb, -⟩ := year_chars hf.1
      simp only [ProvName.text, List.append_assoc, List.cons_append, List.nil_append, List.cons.injEq] at hv
      exact second_notDec hb hv.2.1.symm
    | survey n' s =>
      obtain ⟨a, b, c', d, rfl, ha, hb, -⟩ := year_chars (show Year n' from hf)
      simp only [ProvName.text, List.append_assoc, List.cons_append, List.nil_append, List.cons.injEq] at hv
      exact second_notDec hb hv.2.1.symm
    | comet ty y' half order n' =>
      simp only [ProvName.text, List.append_assoc, List.cons_append, List.nil_append, List.cons.injEq] at hv
      exact absurd hv.1.symm (ty_ne_S hf.1)
    | fragment ty y' half n' f' =>
      simp only [ProvName.text, List.append_assoc, List.cons_append, List.nil_append, List.cons.injEq] at hv
      exact absurd hv.1.symm (ty_ne_S' hf.1)
    | satellite y' p' n' =>
      obtain ⟨a', b', c', d', rfl, -⟩ := year_chars hf.1
      simp only [ProvName.text, List.append_assoc, List.cons_append, List.nil_append, List.cons.injEq, true_and] at hv
      have := hv.2.2.2.2.1
      rcases hq with rfl | rfl <;> cases p' <;> exact absurd this (by decide)

/-! ### writing 80 columns -/

section
open Verif.Mpc80 Verif.Spec.Mpc80 Verif.Xml Verif.ToMpc80

/-- **C53.** What cannot be packed ends the conversion of its observation with that exception, before anything is written (artificial satellites excepted, whose name is written as it is). -/
theorem C53_stops (op : Opts) {e : Elem} (hk : (e.tag = c! "optical" ∨ e.tag = c! "occultation") ∧ fieldOf e (c! "artSat") = none ∨ e.tag = c! "radar") {x : PyErr}
    (hp : packTupleID ⟨fieldOf e (c! "permID"), fieldOf e (c! "provID"), fieldOf e (c! "trkSub")⟩ = .error x) : alone op e = ⟨[], [], some x⟩ := by
  rw [alone_record (by rcases hk with ⟨h | h, -⟩ | h <;> rw [h] <;> decide)]
  unfold recordOut printData
  by_cases hq : e.tag = c! "optical" ∨ e.tag = c! "occultation"
  · rw [if_pos hq]
    have ha : fieldOf e (c! "artSat") = none := by
      rcases hk with h | h
      · exact h.2
      · rw [h] at hq; exact absurd hq (by decide)
    have o : opticalFirst op (ToPsv.subDict e) = .error x := by
      unfold opticalFirst idColumns
      rw [field_get, field_get, field_get, field_get, ha]
      simp only [hp]
      rfl
    unfold printOpticalLine
    rw [o]
    rfl
  · have hr : e.tag = c! "radar" := by
      rcases hk with h | h
      · exact absurd h.1 hq
      · exact h
    rw [if_neg hq, if_pos hr]
    have r : radarLines (ToPsv.subDict e) = .error x := by
      unfold radarLines
      rw [field_get, field_get, field_get, hp]
      rfl
    unfold printRadarLine
    rw [r]
    rfl

/-- **C53.** So with a satellite of Mars or of a minor planet. -/
theorem C53_stops_without (op : Opts) {e : Elem} (hk : (e.tag = c! "optical" ∨ e.tag = c! "occultation") ∧ fieldOf e (c! "artSat") = none ∨ e.tag = c! "radar") {v : Str}
    (hv : fieldOf e (c! "permID") = some v ∧ PermWithout v ∨ fieldOf e (c! "provID") = some v ∧ ProvWithout v) : alone op e = ⟨[], [], some .runtimeError⟩ := by
  refine C53_stops op hk ?_
  rcases hv with ⟨h, hw⟩ | ⟨h, hw⟩
  · rw [h]; exact C53_perm_without hw _ _
  · rw [h]; exact C53_prov_without hw _ _

/-- Phobos -/
def phobos : Elem := .mk (c! "optical") none [] [.mk (c! "permID") (some (c! "Mars 1")) [] []]
example : PermanentName (c! "Mars 1") := ⟨by decide, .inr (.inl ⟨c! "Mars", c! "1", by decide, ⟨by decide, by simp, by decide +kernel⟩, rfl⟩)⟩
example : alone {} phobos = ⟨[], [], some .runtimeError⟩ :=
  C53_stops_without {} (.inl ⟨.inl rfl, by decide +kernel⟩) (v := c! "Mars 1") (.inl ⟨by decide +kernel, .inl ⟨c! "1", rfl⟩⟩)
end

/-- a fragment of a comet with two letters and a satellite of a minor planet: valid and without columns -/
example : ProvisionalName (c! "C/2019 AB1-C") ∧ ProvWithout (c! "C/2019 AB1-C") :=
  ⟨⟨by decide, c! "2019", ⟨by decide, by simp, by decide +kernel⟩, .inr (.inr (.inl ⟨'C', c! "AB", c! "1", c! "-C", by decide, by decide, by decide, by unfold Capital; decide,
      ⟨by decide, by simp, by decide +kernel⟩, .inr ⟨'C', by unfold Capital; decide, rfl⟩, rfl⟩))⟩,
   .inl ⟨'C', c! "2019", c! "AB", c! "1", 'C', by decide, ⟨rfl, by decide +kernel⟩, by unfold Capital; decide, .inr rfl, by unfold Digits0; decide +kernel, by unfold Capital; decide, rfl⟩⟩
example : ProvisionalName (c! "S/2001 (107) 1") ∧ ProvWithout (c! "S/2001 (107) 1") :=
  ⟨⟨by decide, c! "2001", ⟨by decide, by simp, by decide +kernel⟩, .inr (.inr (.inr ⟨c! "(107)", c! "1", ⟨by decide, by simp, by decide +kernel⟩, rfl, .inr (.inl ⟨c! "107", ⟨by decide, by simp, by decide +kernel⟩, rfl⟩)⟩))⟩,
   .inr ⟨c! "2001", '(', c! "107) 1", ⟨rfl, by decide +kernel⟩, .inr rfl, rfl⟩⟩

end Verif
