import Verif.Lemmas.ParserSort
import Verif.Props.ParserList

/-!
# Property C43: sorting and merging
-/

namespace Verif

open Spec

/-- The parser with the same options but a different sort order. -/
def withSort (p : Parser) (sort : BitVec 64) : Parser := (Parser.setSortOrder sort p).1

/-- The parser which does not sort. -/
def unsortedOf (p : Parser) : Parser := withSort p (p.config.sort &&& SORT_NO_EMPTY)

/-- The sort order in which a range comes before another one with `SORT_FULL`: the empty ranges are last, the other ones
are ordered by first address, the longest one first. -/
def FullOrder (r s : Range) : Prop :=
  (last r < first r → last s < first s)
    ∧ (first s ≤ last s → first r < first s ∨ (first r = first s ∧ last s ≤ last r))

/-- The group of a range: with `SORT_IPV4_FIRST` the IPv4 ranges, the other ones, the empty ones; with `SORT_IPV6_FIRST` the
ranges which are not IPv4, the IPv4 ones, the empty ones. -/
def group (sort : BitVec 64) (r : Range) : Nat :=
  if sort &&& SORT_IPV4_FIRST = 0 ∧ sort &&& SORT_IPV6_FIRST = 0 then 0
  else if last r < first r then 2
  else if (isV4 (first r) ∧ isV4 (last r)) ↔ sort &&& SORT_IPV4_FIRST ≠ 0 then 0
  else 1

/-- Some range of the list holds the address `v`. -/
def Holding (l : List Range) (v : Nat) : Prop := ∃ r ∈ l, between v (first r) (last r)

/-! ### Lemmas -/

theorem unsortedOf_config (p : Parser) : (unsortedOf p).config = { p.config with sort := p.config.sort &&& SORT_NO_EMPTY } := by
  rw [unsortedOf, withSort, Parser.setSortOrder, if_neg]
  · rfl
  · intro h
    have h1 : p.config.sort &&& SORT_NO_EMPTY &&& (SORT_IPV6_FIRST ||| SORT_IPV4_FIRST) = 0 := by
      rw [BitVec.and_assoc]
      have : SORT_NO_EMPTY &&& (SORT_IPV6_FIRST ||| SORT_IPV4_FIRST) = 0 := by decide
      rw [this]
      exact BitVec.and_zero
    rw [h1] at h
    exact absurd h (by decide)

theorem unsortedOf_error (p : Parser) : (unsortedOf p).error = p.error ∧ (unsortedOf p).errorCount = p.errorCount := by
  rw [unsortedOf, withSort, Parser.setSortOrder]
  split <;> exact ⟨rfl, rfl⟩

theorem unsortedOf_sort (s : BitVec 64) : s &&& SORT_NO_EMPTY &&& 0x0F = 0 := by
  rw [BitVec.and_assoc]
  have : SORT_NO_EMPTY &&& 0x0F = 0 := by decide
  rw [this]
  exact BitVec.and_zero

theorem agree_unsortedOf (p : Parser) : Parser.AgreeMask p.config (unsortedOf p).config := by
  rw [unsortedOf_config]
  have : p.config.sort &&& SORT_NO_EMPTY = p.config.sort &&& SORT_NO_EMPTY &&& SORT_NO_EMPTY := by
    rw [BitVec.and_assoc, BitVec.and_self]
  exact ⟨⟨⟨rfl, rfl, rfl, rfl, rfl, rfl, rfl, rfl, rfl⟩, this⟩, rfl, rfl, rfl, rfl⟩

theorem parse_eq (env : ParseEnv) (inp : Str) (p : Parser) :
    Parser.parse env inp p = (Parser.parseUnsorted env inp >>= fun l => PM.lift (Parser.sortResult p.config.sort l)) p := by
  rw [Parser.parse, PM.config_bind]

/-- Parsing is reading, which does not depend on the sort order, then sorting. -/
theorem parse_sort (env : ParseEnv) (inp : Str) (p : Parser) :
    let a := Parser.parse env inp p
    let b := Parser.parse env inp (unsortedOf p)
    a.1.error = b.1.error ∧ a.1.errorCount = b.1.errorCount
      ∧ (∀ e, b.2 = .throw e → a.2 = .throw e) ∧ (∀ w, b.2 = .ub w → a.2 = .ub w)
      ∧ ∀ l, b.2 = .ok l → (∀ r ∈ l, Defined r) ∧ a.2 = Parser.sortResult p.config.sort l := by
  intro a b
  have hcfg := unsortedOf_config p
  have hrel := Parser.rel_parseUnsorted (by rw [hcfg]) (agree_unsortedOf p) env inp p (unsortedOf p) rfl rfl
    (unsortedOf_error p).1.symm (unsortedOf_error p).2.symm
  have hpost := (Parser.post_parseUnsorted (c := p.config) env inp p rfl).2
  have ha : a = (Parser.parseUnsorted env inp >>= fun l => PM.lift (Parser.sortResult p.config.sort l)) p := parse_eq env inp p
  have hb : b = Parser.parseUnsorted env inp (unsortedOf p) := by
    show Parser.parse env inp (unsortedOf p) = _
    rw [parse_eq]
    have : (fun l => PM.lift (Parser.sortResult (unsortedOf p).config.sort l)) = fun l => (Pure.pure l : PM (List Range)) := by
      funext l
      rw [sortResult_unsorted _ (by rw [hcfg]; exact unsortedOf_sort _)]
      rfl
    rw [this, PM.bind_pure]
  rw [← hb] at hrel
  rw [PM.bind_def] at ha
  rcases hm : Parser.parseUnsorted env inp p with ⟨q, r⟩
  rw [hm] at hrel hpost ha
  obtain ⟨e1, e2, e3, e4, e5⟩ := hrel
  dsimp only at e1 e2 e3 e4 hpost
  subst e1
  cases hbr : b.2 with
  | ok l =>
    rw [hbr] at ha hpost
    rw [ha]
    refine ⟨e2, e3, fun e h => (nomatch h), fun w h => (nomatch h), fun l' hl' => ?_⟩
    cases hl'
    exact ⟨fun r hr => (hpost l rfl r hr).1, rfl⟩
  | throw e =>
    rw [hbr] at ha
    rw [ha]
    exact ⟨e2, e3, fun _ h => h, fun w h => (nomatch h), fun l' hl' => (nomatch hl')⟩
  | ub w =>
    rw [hbr] at ha
    rw [ha]
    exact ⟨e2, e3, fun _ h => (nomatch h), fun w h => h, fun l' hl' => (nomatch hl')⟩

theorem fullOrder_iff {r s : Range} (hr : Defined r) (hs : Defined s) : s.lt r = .ok false ↔ FullOrder r s := by
  obtain ⟨b, h1, h2⟩ := C32_less_iff s r hs hr
  rw [h1, Res.ok.injEq, FullOrder]
  cases b with
  | true =>
    simp only [true_iff] at h2
    simp only [Bool.true_eq_false, false_iff]
    omega
  | false =>
    simp only [Bool.false_eq_true, false_iff] at h2
    simp only [true_iff]
    omega

theorem group_none (s : BitVec 64) (h4 : s &&& SORT_IPV4_FIRST = 0) (h6 : s &&& SORT_IPV6_FIRST = 0) (r : Range) :
    group s r = 0 := if_pos ⟨h4, h6⟩

theorem group_v4 (s : BitVec 64) (h4 : s &&& SORT_IPV4_FIRST ≠ 0) (r : Range) : group s r = Parser.familyRank true r := by
  rw [group, if_neg (fun h => h4 h.1), Parser.familyRank]
  by_cases h : isV4 (first r) ∧ isV4 (last r)
  · rw [if_pos (c := (isV4 (first r) ∧ isV4 (last r) ↔ _)) ⟨fun _ => h4, fun _ => h⟩, decide_eq_true h]; rfl
  · rw [if_neg (c := (isV4 (first r) ∧ isV4 (last r) ↔ _)) (fun h' => h (h'.2 h4)), decide_eq_false h]; rfl

theorem group_v6 (s : BitVec 64) (h4 : s &&& SORT_IPV4_FIRST = 0) (h6 : s &&& SORT_IPV6_FIRST ≠ 0) (r : Range) :
    group s r = Parser.familyRank false r := by
  rw [group, if_neg (fun h => h6 h.2), Parser.familyRank]
  by_cases h : isV4 (first r) ∧ isV4 (last r)
  · rw [if_neg (c := (isV4 (first r) ∧ isV4 (last r) ↔ _)) (fun h' => (h'.1 h) h4), decide_eq_true h]; rfl
  · rw [if_pos (c := (isV4 (first r) ∧ isV4 (last r) ↔ _)) ⟨fun h' => absurd h' h, fun h' => absurd h4 h'⟩,
      decide_eq_false h]; rfl

/-- The last step of the sort, by family. -/
def familyStep (s : BitVec 64) (l : List Range) : Res (List Range) :=
  if s &&& SORT_IPV4_FIRST ≠ 0 then Parser.stableSort (Parser.familyFirst .ipv4VsIpv6) l
  else if s &&& SORT_IPV6_FIRST ≠ 0 then Parser.stableSort (Parser.familyFirst .ipv6VsIpv4) l
  else .ok l

theorem familyStep_ok (s : BitVec 64) {l : List Range} (hl : ∀ r ∈ l, Defined r) :
    ∃ l', familyStep s l = .ok l' ∧ l'.Perm l ∧ (l'.Pairwise fun a b => group s a ≤ group s b)
      ∧ ∀ k, l'.filter (fun r => decide (group s r = k)) = l.filter (fun r => decide (group s r = k)) := by
  have key : ∀ v4First : Bool, (∀ r, group s r = Parser.familyRank v4First r) →
      ∃ l', Parser.stableSort (Parser.familyFirst (if v4First then .ipv4VsIpv6 else .ipv6VsIpv4)) l = .ok l' ∧ l'.Perm l
        ∧ (l'.Pairwise fun a b => group s a ≤ group s b)
        ∧ ∀ k, l'.filter (fun r => decide (group s r = k)) = l.filter (fun r => decide (group s r = k)) := by
    intro v4First hg
    obtain ⟨l', e, hs⟩ := Parser.stableSort_ok (Parser.orders_family v4First hl)
    have hd : ∀ r ∈ l', Defined r := fun r hr => hl r (hs.perm.mem_iff.1 hr)
    refine ⟨l', e, hs.perm, hs.order.imp_of_mem fun {a b} ha hb hab => ?_, fun k => hs.filter_eq _ ?_⟩
    · rw [Parser.familyFirst_iff v4First (hd b hb) (hd a ha)] at hab
      rw [hg, hg]
      simp only [Res.ok.injEq, decide_eq_false_iff_not] at hab
      omega
    · intro a ha b hb h1 h2
      rw [Parser.familyFirst_iff v4First (hl b hb) (hl a ha)]
      rw [decide_eq_true_eq, hg] at h1 h2
      simp only [Res.ok.injEq, decide_eq_false_iff_not]
      omega
  rw [familyStep]
  by_cases h4 : s &&& SORT_IPV4_FIRST ≠ 0
  · rw [if_pos h4]
    exact key true (group_v4 s h4)
  · rw [if_neg h4]
    have h4 : s &&& SORT_IPV4_FIRST = 0 := Decidable.not_not.1 h4
    by_cases h6 : s &&& SORT_IPV6_FIRST ≠ 0
    · rw [if_pos h6]
      exact key false (group_v6 s h4 h6)
    · rw [if_neg h6]
      have h6 : s &&& SORT_IPV6_FIRST = 0 := Decidable.not_not.1 h6
      refine ⟨l, rfl, List.Perm.refl _, ?_, fun _ => rfl⟩
      refine List.pairwise_iff_forall_sublist.2 fun {a b} _ => ?_
      rw [group_none s h4 h6, group_none s h4 h6]

/-- The step before, which merges. -/
def mergeStep (s : BitVec 64) (l : List Range) : Res (List Range) :=
  if s &&& SORT_MERGE ≠ 0 then Parser.mergeAll l else .ok l

theorem sortResult_eq (s : BitVec 64) (l : List Range) :
    Parser.sortResult s l
      = ((if s &&& (SORT_FULL ||| SORT_MERGE) ≠ 0 then Parser.stableSort Range.lt l else .ok l) >>= fun l =>
          mergeStep s l >>= fun l => familyStep s l) := by
  unfold Parser.sortResult mergeStep
  by_cases h1 : s &&& (SORT_FULL ||| SORT_MERGE) ≠ 0
  · rw [if_pos h1, if_pos h1]
    cases Parser.stableSort Range.lt l with
    | throw e => rfl
    | ub w => rfl
    | ok l1 =>
      simp only [Res.bind_ok]
      by_cases h2 : s &&& SORT_MERGE ≠ 0
      · rw [if_pos h2, if_pos h2]; rfl
      · rw [if_neg h2, if_neg h2]; rfl
  · rw [if_neg h1, if_neg h1]
    simp only [Res.bind_ok]
    by_cases h2 : s &&& SORT_MERGE ≠ 0
    · rw [if_pos h2, if_pos h2]; rfl
    · rw [if_neg h2, if_neg h2]; rfl

theorem full_or_merge (s : BitVec 64) (hm : s &&& SORT_MERGE = 0) : s &&& (SORT_FULL ||| SORT_MERGE) = s &&& SORT_FULL := by
  have e : s &&& (SORT_FULL ||| SORT_MERGE) = (s &&& SORT_FULL) ||| (s &&& SORT_MERGE) := by
    ext i hi
    simp only [BitVec.getElem_and, BitVec.getElem_or, Bool.and_or_distrib_left]
  rw [e, hm]
  exact BitVec.or_zero

theorem merge_or_full (s : BitVec 64) (hm : s &&& SORT_MERGE ≠ 0) : s &&& (SORT_FULL ||| SORT_MERGE) ≠ 0 := by
  intro h
  apply hm
  have e : (SORT_FULL ||| SORT_MERGE) &&& SORT_MERGE = SORT_MERGE := by decide
  rw [← e, ← BitVec.and_assoc, h]
  exact BitVec.zero_and

/-- The order is the same with or without a filter on the bounds. -/
theorem filter_bounds_group (s : BitVec 64) {l l' : List Range}
    (h : ∀ k, l'.filter (fun r => decide (group s r = k)) = l.filter (fun r => decide (group s r = k))) (x y : Nat) :
    l'.filter (fun r => decide (first r = x ∧ last r = y)) = l.filter (fun r => decide (first r = x ∧ last r = y)) := by
  -- the group depends on the bounds only
  have hg : ∃ k, ∀ r : Range, first r = x ∧ last r = y → group s r = k := by
    refine ⟨if s &&& SORT_IPV4_FIRST = 0 ∧ s &&& SORT_IPV6_FIRST = 0 then 0
      else if y < x then 2 else if (isV4 x ∧ isV4 y) ↔ s &&& SORT_IPV4_FIRST ≠ 0 then 0 else 1, fun r hr => ?_⟩
    rw [group, hr.1, hr.2]
  obtain ⟨k, hk⟩ := hg
  have hf : ∀ m : List Range, m.filter (fun r => decide (first r = x ∧ last r = y))
      = (m.filter (fun r => decide (group s r = k))).filter (fun r => decide (first r = x ∧ last r = y)) := by
    intro m
    rw [List.filter_filter]
    congr 1
    funext r
    by_cases hr : first r = x ∧ last r = y
    · rw [decide_eq_true hr, decide_eq_true (hk r hr)]; rfl
    · rw [decide_eq_false hr]; rfl
  rw [hf l', hf l, h k]

/-- The order of the lists which are not merged. -/
theorem sortResult_sorts (s : BitVec 64) (hm : s &&& SORT_MERGE = 0) {l : List Range} (hl : ∀ r ∈ l, Defined r) :
    ∃ l', Parser.sortResult s l = .ok l' ∧ l'.Perm l
      ∧ (l'.Pairwise fun a b => group s a ≤ group s b)
      ∧ (s &&& SORT_FULL ≠ 0 → l'.Pairwise fun a b => group s a = group s b → FullOrder a b)
      ∧ (s &&& SORT_FULL = 0 →
          ∀ k, l'.filter (fun r => decide (group s r = k)) = l.filter (fun r => decide (group s r = k)))
      ∧ (∀ x y, l'.filter (fun r => decide (first r = x ∧ last r = y))
          = l.filter (fun r => decide (first r = x ∧ last r = y))) := by
  have hstep : mergeStep s = .ok := funext fun l => if_neg (fun h => h hm)
  rw [sortResult_eq, full_or_merge s hm, hstep]
  by_cases hf : s &&& SORT_FULL ≠ 0
  · rw [if_pos hf]
    obtain ⟨l1, e1, hs1⟩ := Parser.stableSort_ok (Parser.orders_lt hl)
    have hd1 : ∀ r ∈ l1, Defined r := fun r hr => hl r (hs1.perm.mem_iff.1 hr)
    obtain ⟨l', e2, hp, hgrp, hst⟩ := familyStep_ok s hd1
    refine ⟨l', ?_, hp.trans hs1.perm, hgrp, fun _ => ?_, fun h => absurd h hf, fun x y => ?_⟩
    · rw [e1]
      simp only [Res.bind_ok]
      exact e2
    · refine List.pairwise_iff_forall_sublist.2 fun {a b} hab hg => ?_
      -- both are in the same group, where the order is the one of `l1`
      have hsub : [a, b].Sublist l1 := by
        have h1 := hab.filter (fun r => decide (group s r = group s b))
        rw [hst] at h1
        have h2 : [a, b].filter (fun r => decide (group s r = group s b)) = [a, b] := by
          simp [List.filter_cons, hg]
        rw [h2] at h1
        exact h1.trans List.filter_sublist
      have h1 := List.pairwise_iff_forall_sublist.1 hs1.order hsub
      have ha := hd1 a (hsub.subset (by simp))
      have hb := hd1 b (hsub.subset (by simp))
      exact (fullOrder_iff ha hb).1 h1
    · rw [filter_bounds_group s hst]
      refine hs1.filter_eq _ fun a ha b hb h1 h2 => ?_
      rw [decide_eq_true_eq] at h1 h2
      rw [fullOrder_iff (hl a ha) (hl b hb), FullOrder, h1.1, h1.2, h2.1, h2.2]
      exact ⟨fun h => h, fun _ => .inr ⟨rfl, Nat.le_refl _⟩⟩
  · rw [if_neg hf]
    have hf : s &&& SORT_FULL = 0 := Decidable.not_not.1 hf
    obtain ⟨l', e2, hp, hgrp, hst⟩ := familyStep_ok s hl
    exact ⟨l', e2, hp, hgrp, fun h => absurd hf h, fun _ => hst, filter_bounds_group s hst⟩

/-- What merging does. -/
theorem sortResult_merges (s : BitVec 64) (hm : s &&& SORT_MERGE ≠ 0) {l : List Range} (hl : ∀ r ∈ l, Defined r) :
    Parser.sortResult s l = .throw .outOfRange
      ∨ ∃ l', Parser.sortResult s l = .ok l' ∧ (∀ r ∈ l', Defined r) ∧ (∀ v, Holding l' v ↔ Holding l v)
        ∧ (l'.Pairwise fun a b => first a ≤ last a → first b ≤ last b → ¬ meetOrTouch (first a) (last a) (first b) (last b))
        ∧ (l'.Pairwise fun a b => group s a ≤ group s b)
        ∧ (l'.Pairwise fun a b => group s a = group s b → first a ≤ last a → first b ≤ last b → first a ≤ first b) := by
  have hstep : mergeStep s = Parser.mergeAll := funext fun l => if_pos hm
  rw [sortResult_eq, if_pos (merge_or_full s hm), hstep]
  obtain ⟨l1, e1, hs1⟩ := Parser.stableSort_ok (Parser.orders_lt hl)
  have hd1 : ∀ r ∈ l1, Defined r := fun r hr => hl r (hs1.perm.mem_iff.1 hr)
  rw [e1]
  simp only [Res.bind_ok]
  have hcov1 : ∀ v, Holding l1 v ↔ Holding l v := by
    intro v
    constructor
    · rintro ⟨r, hr, h⟩
      exact ⟨r, hs1.perm.mem_iff.1 hr, h⟩
    · rintro ⟨r, hr, h⟩
      exact ⟨r, hs1.perm.mem_iff.2 hr, h⟩
  have hmerge : Parser.mergeAll l1 = .throw .outOfRange ∨ ∃ l2, Parser.mergeAll l1 = .ok l2 ∧ (∀ r ∈ l2, Defined r)
      ∧ (∀ v, Holding l2 v ↔ Holding l1 v) ∧ l2.Pairwise Parser.Gap := by
    cases l1 with
    | nil => exact .inr ⟨[], rfl, fun r hr => (nomatch hr), fun v => Iff.rfl, List.Pairwise.nil⟩
    | cons cur l1 =>
      have hc := hd1 cur (List.mem_cons_self ..)
      have hl1 : ∀ r ∈ l1, Defined r := fun r hr => hd1 r (List.mem_cons_of_mem _ hr)
      have hsb := hs1.order.imp_of_mem fun {a b} ha hb hab => Parser.startsBefore_of_lt (hd1 a ha) (hd1 b hb) hab
      rw [List.pairwise_cons] at hsb
      rcases Parser.mergeLoop_outcome cur l1 hc hl1 with h | ⟨l2, h, h1, h2⟩
      · exact .inl h
      · exact .inr ⟨l2, h, h1, h2, (Parser.mergeLoop_gaps cur l1 hc hl1 hsb.1 hsb.2 l2 h).1⟩
  rcases hmerge with h | ⟨l2, h, hd2, hcov2, hgap⟩
  · left; rw [h]; rfl
  · right
    obtain ⟨l', e2, hp, hgrp, hst⟩ := familyStep_ok s hd2
    refine ⟨l', ?_, fun r hr => hd2 r (hp.mem_iff.1 hr), fun v => ?_, ?_, hgrp, ?_⟩
    · rw [h]
      simp only [Res.bind_ok]
      exact e2
    · rw [← hcov1, ← hcov2]
      constructor
      · rintro ⟨r, hr, h⟩
        exact ⟨r, hp.mem_iff.1 hr, h⟩
      · rintro ⟨r, hr, h⟩
        exact ⟨r, hp.mem_iff.2 hr, h⟩
    · refine (List.Perm.pairwise_iff ?_ hp).2 (hgap.imp fun {a b} h h1 h2 => ?_)
      · intro a b h h1 h2 h3
        apply h h2 h1
        unfold meetOrTouch at h3 ⊢
        omega
      · have := h h1 h2
        unfold meetOrTouch
        omega
    · refine List.pairwise_iff_forall_sublist.2 fun {a b} hab hg h1 h2 => ?_
      have hsub : [a, b].Sublist l2 := by
        have h1 := hab.filter (fun r => decide (group s r = group s b))
        rw [hst] at h1
        have h2 : [a, b].filter (fun r => decide (group s r = group s b)) = [a, b] := by
          simp [List.filter_cons, hg]
        rw [h2] at h1
        exact h1.trans List.filter_sublist
      have := List.pairwise_iff_forall_sublist.1 hgap hsub h1 h2
      omega

/-! ### Empty ranges -/

theorem seqEntries_noEmpty (env : ParseEnv) (c : Config) (s : BitVec 64) (h0 : c.sort &&& SORT_NO_EMPTY = 0)
    (h1 : s &&& SORT_NO_EMPTY ≠ 0) (es : List Str) (p p' : Parser) (hp : p.config = c) (hp' : p'.config = { c with sort := s })
    (l : List Range) (hl : (Parser.seqEntries env es p).2 = .ok l) :
    (Parser.seqEntries env es p').2 = .ok (l.filter fun r => !r.isEmpty) := by
  induction es generalizing p p' l with
  | nil => cases hl; rfl
  | cons e es ih =>
    rw [Parser.seqEntries, PM.bind_def] at hl ⊢
    have hc := Parser.parseCidr_noEmpty (c := c) (c' := { c with sort := s }) ⟨rfl, rfl, rfl, rfl, rfl, rfl, rfl, rfl, rfl⟩
      h0 h1 rfl rfl rfl rfl env e p p' hp hp'
    obtain ⟨errs, r, hlog⟩ := Parser.logging_parseCidr env c e []
    obtain ⟨errs', r', hlog'⟩ := Parser.logging_parseCidr env { c with sort := s } e []
    rw [hlog p hp, hlog' p' hp'] at hc
    rw [hlog p hp] at hl
    rw [hlog' p' hp']
    cases r with
    | throw e => cases hl
    | ub w => cases hl
    | ok m =>
      have hc : r' = .ok (m.filter fun r => !r.isEmpty) := hc m rfl
      subst hc
      dsimp only at hl ⊢
      rw [Parser.prepend, PM.bind_def] at hl ⊢
      have ih := ih (Parser.emitAll errs p) (Parser.emitAll errs' p') hp hp'
      rcases hx : Parser.seqEntries env es (Parser.emitAll errs p) with ⟨q, t⟩
      rcases hx' : Parser.seqEntries env es (Parser.emitAll errs' p') with ⟨q', t'⟩
      rw [hx, hx'] at ih
      rw [hx] at hl
      cases t with
      | throw e => cases hl
      | ub w => cases hl
      | ok k =>
        have ih : t' = _ := ih k rfl
        subst ih
        cases hl
        rw [List.filter_append]
        rfl

theorem entriesOf_sort (c : Config) (s : BitVec 64) (fuel : Nat) (inp : Str) :
    Parser.entriesOf { c with sort := s } fuel inp = Parser.entriesOf c fuel inp := by
  induction fuel generalizing inp with
  | zero => rfl
  | succ n ih =>
    have h1 : Parser.isSep { c with sort := s } = Parser.isSep c := rfl
    have h2 : Parser.entryText { c with sort := s } = Parser.entryText c := rfl
    have h3 : Parser.skipLine { c with sort := s } = Parser.skipLine c := rfl
    simp only [Parser.entriesOf, ih, h1, h2, h3]

theorem parseUnsorted_noEmpty (env : ParseEnv) (c : Config) (s : BitVec 64) (h0 : c.sort &&& SORT_NO_EMPTY = 0)
    (h1 : s &&& SORT_NO_EMPTY ≠ 0) (inp : Str) (p p' : Parser) (hp : p.config = c) (hp' : p'.config = { c with sort := s })
    (l : List Range) (hl : (Parser.parseUnsorted env inp p).2 = .ok l) :
    (Parser.parseUnsorted env inp p').2 = .ok (l.filter fun r => !r.isEmpty) := by
  have hc := fun e => Parser.parseCidr_noEmpty (c := c) (c' := { c with sort := s }) ⟨rfl, rfl, rfl, rfl, rfl, rfl, rfl, rfl, rfl⟩
      h0 h1 rfl rfl rfl rfl env e p p' hp hp'
  have hsep : Parser.separators { c with sort := s } = Parser.separators c := rfl
  rw [Parser.parseUnsorted, PM.config_bind, hp] at hl
  rw [Parser.parseUnsorted, PM.config_bind, hp', hsep]
  by_cases h : Parser.separators c = []
  · rw [if_pos h] at hl ⊢
    rw [Parser.parseSingle, PM.config_bind, hp] at hl
    rw [Parser.parseSingle, PM.config_bind, hp']
    have hend : Parser.singleEnd { c with sort := s } inp = Parser.singleEnd c inp := rfl
    rw [hend]
    by_cases hx : Parser.singleStart inp ≠ 0 ∨ Parser.singleEnd c inp ≠ inp.length
    · rw [if_pos hx] at hl ⊢
      cases hsub : Parser.substr inp (Parser.singleStart inp) (Parser.subSize (Parser.singleEnd c inp) (Parser.singleStart inp)) with
      | throw e => rw [hsub] at hl; cases hl
      | ub w => rw [hsub] at hl; cases hl
      | ok e =>
        rw [hsub, PM.lift_ok_bind] at hl
        rw [PM.lift_ok_bind]
        exact hc e l hl
    · rw [if_neg hx] at hl ⊢
      exact hc inp l hl
  · rw [if_neg h, Parser.parseList_eq, Parser.prepend, PM.bind_def] at hl
    rw [if_neg h, Parser.parseList_eq, Parser.prepend, PM.bind_def, hp', entriesOf_sort]
    rw [hp] at hl
    have hs := seqEntries_noEmpty env c s h0 h1 (Parser.entriesOf c inp.length inp) p p' hp hp'
    rcases hx : Parser.seqEntries env (Parser.entriesOf c inp.length inp) p with ⟨q, t⟩
    rcases hx' : Parser.seqEntries env (Parser.entriesOf c inp.length inp) p' with ⟨q', t'⟩
    rw [hx, hx'] at hs
    rw [hx] at hl
    cases t with
    | throw e => cases hl
    | ub w => cases hl
    | ok k =>
      have hs : t' = _ := hs k rfl
      subst hs
      cases hl
      rfl

/-! ### When merging does not throw -/

/-- The mask sizes of the bounds suit all addresses. -/
def MasksSuit (r : Range) : Prop :=
  (96 ≤ r.lo.getMaskSize ∧ r.lo.getMaskSize ≤ 128) ∧ (96 ≤ r.hi.getMaskSize ∧ r.hi.getMaskSize ≤ 128)

theorem accepted_of_suit (v : Nat) {a b : Int} (ha : 96 ≤ a ∧ a ≤ 128) (hb : 96 ≤ b ∧ b ≤ 128) : MaskCountAccepted v (min a b) := by
  unfold MaskCountAccepted
  split <;> omega

theorem union_suit {r s : Range} (hr : Defined r) (h1 : MasksSuit r) (h2 : MasksSuit s) :
    ∃ u, r.unionIfPossible s = .ok u ∧ (Defined u → MasksSuit u) := by
  have hacc : UnionMasksAccepted r s := ⟨accepted_of_suit _ h1.1 h2.1, accepted_of_suit _ h1.2 h2.2⟩
  obtain ⟨c1, _, c3⟩ := union_cases r s hr
  by_cases hmeet : (first r ≤ last s ∧ first s ≤ last r) ∨ last s + 1 = first r ∨ first s = last r + 1
  · obtain ⟨u, e, hd, _, _, hlo, hhi⟩ := c3 hmeet hacc
    refine ⟨u, e, fun _ => ⟨by rw [hlo]; have := h1.1; have := h2.1; omega, ?_⟩⟩
    by_cases hc : Complete r ∨ Complete s
    · rw [(hhi hc).2]; have := h1.2; have := h2.2; omega
    · -- the upper bound is the one of a range of one address, or a new one with the mask asked for
      unfold Range.unionIfPossible at e
      have hd' : ¬ ((!r.isDefined && !s.isDefined) = true) := by
        rw [(defined_isDefined r).2 hr]; simp
      rw [if_neg hd'] at e
      simp only at e
      rw [if_pos ((union_cond r s).2 hmeet)] at e
      obtain ⟨lo, e1, f1, g1⟩ := withMaskCount_ok (a := if Addr.lt r.fromOrTo s.fromOrTo then r.fromOrTo else s.fromOrTo)
        (n := min r.lo.getMaskSize s.lo.getMaskSize) (accepted_of_suit _ h1.1 h2.1)
      obtain ⟨hi, e2, f2, g2⟩ := withMaskCount_ok (a := if Addr.gt r.toOrFrom s.toOrFrom then r.toOrFrom else s.toOrFrom)
        (n := min r.hi.getMaskSize s.hi.getMaskSize) (accepted_of_suit _ h1.2 h2.2)
      rw [e1, e2] at e
      simp only [Res.bind_ok, Res.pure_eq] at e
      split at e
      · cases e
        show 96 ≤ hi.getMaskSize ∧ hi.getMaskSize ≤ 128
        rw [g2]; have := h1.2; have := h2.2; omega
      · cases e
        show 96 ≤ Addr.default.getMaskSize ∧ Addr.default.getMaskSize ≤ 128
        decide +kernel
  · exact ⟨_, c1 hmeet, fun h => absurd h (by decide)⟩

theorem mergeLoop_suit (cur : Range) (l : List Range) (hc : Defined cur) (hl : ∀ r ∈ l, Defined r) (hcs : MasksSuit cur)
    (hls : ∀ r ∈ l, MasksSuit r) : ∃ l', Parser.mergeLoop cur l = .ok l' := by
  induction l generalizing cur with
  | nil => exact ⟨_, rfl⟩
  | cons next l ih =>
    obtain ⟨u, hu, hus⟩ := union_suit hc hcs (hls next (List.mem_cons_self ..))
    have hl' : ∀ r ∈ l, Defined r := fun r hr => hl r (List.mem_cons_of_mem _ hr)
    have hls' : ∀ r ∈ l, MasksSuit r := fun r hr => hls r (List.mem_cons_of_mem _ hr)
    rw [Parser.mergeLoop, hu]
    simp only [Res.bind_ok]
    split
    · rename_i hb
      have hd : Defined u := (defined_isDefined u).1 (by rw [Bool.and_eq_true] at hb; exact hb.1)
      exact ih u hd hl' (hus hd) hls'
    · obtain ⟨t, ht⟩ := ih next (hl next (List.mem_cons_self ..)) hl' (hls next (List.mem_cons_self ..)) hls'
      exact ⟨cur :: t, by rw [ht]; rfl⟩

/-! ## C43 -/

/-- C43: sorting has no effect on the errors reported nor on the exceptions thrown while reading, and adds no undefined
behaviour (the comparators are strict weak orders on every list which the parser builds). -/
theorem C43_reading_unchanged (env : ParseEnv) (inp : Str) (p : Parser) :
    let a := Parser.parse env inp p
    let b := Parser.parse env inp (unsortedOf p)
    a.1.errorMessages = b.1.errorMessages ∧ a.1.getErrorCount = b.1.getErrorCount
      ∧ (∀ e, b.2 = .throw e → a.2 = .throw e) ∧ (∀ w, a.2 = .ub w ↔ b.2 = .ub w) := by
  intro a b
  obtain ⟨h1, h2, h3, h4, h5⟩ := parse_sort env inp p
  refine ⟨h1, h2, h3, fun w => ⟨fun h => ?_, h4 w⟩⟩
  cases hb : b.2 with
  | throw e => have := h3 e hb; exact absurd (h.symm.trans this) (fun h => nomatch h)
  | ub w' => have := h4 w' hb; exact (h.symm.trans this).symm
  | ok l =>
    obtain ⟨hd, he⟩ := h5 l hb
    have he := h.symm.trans he
    by_cases hm : p.config.sort &&& SORT_MERGE = 0
    · obtain ⟨l', hs, _⟩ := sortResult_sorts _ hm hd
      rw [hs] at he
      cases he
    · rcases sortResult_merges _ hm hd with hs | ⟨l', hs, _⟩ <;> (rw [hs] at he; cases he)

/-- C43: without `SORT_MERGE` the ranges returned are a permutation of those read: by group (see `group`), within a group
in the order of `SORT_FULL` if asked for and otherwise in the order of the input; ranges with the same bounds are in the
order of the input. -/
theorem C43_sort_permutes (env : ParseEnv) (inp : Str) (p : Parser) (hm : p.config.sort &&& SORT_MERGE = 0) (l : List Range)
    (hl : (Parser.parse env inp (unsortedOf p)).2 = .ok l) :
    ∃ l', (Parser.parse env inp p).2 = .ok l' ∧ l'.Perm l
      ∧ (l'.Pairwise fun a b => group p.config.sort a ≤ group p.config.sort b)
      ∧ (p.config.sort &&& SORT_FULL ≠ 0 →
          l'.Pairwise fun a b => group p.config.sort a = group p.config.sort b → FullOrder a b)
      ∧ (p.config.sort &&& SORT_FULL = 0 → ∀ k, l'.filter (fun r => decide (group p.config.sort r = k))
          = l.filter (fun r => decide (group p.config.sort r = k)))
      ∧ (∀ x y, l'.filter (fun r => decide (first r = x ∧ last r = y))
          = l.filter (fun r => decide (first r = x ∧ last r = y))) := by
  obtain ⟨_, _, _, _, h5⟩ := parse_sort env inp p
  obtain ⟨hd, he⟩ := h5 l hl
  rw [he]
  exact sortResult_sorts _ hm hd

/-- C43: with `SORT_MERGE`, when the call does not throw, the ranges returned hold the same addresses as those read, no two
of them (the empty ones aside) overlap or touch, and they are sorted. -/
theorem C43_merge_partial (env : ParseEnv) (inp : Str) (p : Parser) (hm : p.config.sort &&& SORT_MERGE ≠ 0) (l : List Range)
    (hl : (Parser.parse env inp (unsortedOf p)).2 = .ok l) :
    (Parser.parse env inp p).2 = .throw .outOfRange
      ∨ ∃ l', (Parser.parse env inp p).2 = .ok l' ∧ (∀ r ∈ l', Defined r) ∧ (∀ v, Holding l' v ↔ Holding l v)
        ∧ (l'.Pairwise fun a b => first a ≤ last a → first b ≤ last b → ¬ meetOrTouch (first a) (last a) (first b) (last b))
        ∧ (l'.Pairwise fun a b => group p.config.sort a ≤ group p.config.sort b)
        ∧ (l'.Pairwise fun a b => group p.config.sort a = group p.config.sort b → first a ≤ last a → first b ≤ last b →
            first a ≤ first b) := by
  obtain ⟨_, _, _, _, h5⟩ := parse_sort env inp p
  obtain ⟨hd, he⟩ := h5 l hl
  rw [he]
  exact sortResult_merges _ hm hd

/-- C43: merging does not throw when the sizes of the masks are between 96 and 128, as they are for IPv4 addresses and for
addresses without mask. -/
theorem C43_merge_succeeds_partial (env : ParseEnv) (inp : Str) (p : Parser) (l : List Range)
    (hl : (Parser.parse env inp (unsortedOf p)).2 = .ok l) (hs : ∀ r ∈ l, MasksSuit r) :
    ∃ l', (Parser.parse env inp p).2 = .ok l' := by
  obtain ⟨_, _, _, _, h5⟩ := parse_sort env inp p
  obtain ⟨hd, he⟩ := h5 l hl
  by_cases hm : p.config.sort &&& SORT_MERGE = 0
  · obtain ⟨l', h, _⟩ := sortResult_sorts _ hm hd
    exact ⟨l', he.trans h⟩
  · have hstep : mergeStep p.config.sort = Parser.mergeAll := funext fun l => if_pos hm
    obtain ⟨l1, e1, hs1⟩ := Parser.stableSort_ok (Parser.orders_lt hd)
    have hd1 : ∀ r ∈ l1, Defined r := fun r hr => hd r (hs1.perm.mem_iff.1 hr)
    have hm1 : ∀ r ∈ l1, MasksSuit r := fun r hr => hs r (hs1.perm.mem_iff.1 hr)
    have hex : ∃ l2, Parser.mergeAll l1 = .ok l2 := by
      cases l1 with
      | nil => exact ⟨_, rfl⟩
      | cons cur l1 =>
        exact mergeLoop_suit cur l1 (hd1 cur (List.mem_cons_self ..)) (fun r hr => hd1 r (List.mem_cons_of_mem _ hr))
          (hm1 cur (List.mem_cons_self ..)) (fun r hr => hm1 r (List.mem_cons_of_mem _ hr))
    rcases sortResult_merges _ hm hd with h | ⟨l', h, _⟩
    · exfalso
      obtain ⟨l2, e2⟩ := hex
      have hd2 : ∀ r ∈ l2, Defined r := by
        cases l1 with
        | nil => cases e2; exact fun r hr => (nomatch hr)
        | cons cur l1 =>
          rcases Parser.mergeLoop_outcome cur l1 (hd1 cur (List.mem_cons_self ..)) (fun r hr => hd1 r (List.mem_cons_of_mem _ hr))
            with h' | ⟨l2', h', h'', _⟩
          · exact absurd (h'.symm.trans e2) (fun h => nomatch h)
          · have := h'.symm.trans e2
            cases this
            exact h''
      obtain ⟨l', e3, _⟩ := familyStep_ok p.config.sort hd2
      rw [sortResult_eq, if_pos (merge_or_full _ hm), hstep, e1] at h
      simp only [Res.bind_ok] at h
      rw [e2] at h
      simp only [Res.bind_ok] at h
      rw [e3] at h
      cases h
    · exact ⟨l', he.trans h⟩

/-- C43: with `SORT_NO_EMPTY` the empty ranges are left out, the other ones are as without. -/
theorem C43_no_empty (env : ParseEnv) (inp : Str) (p : Parser) (hs : Unsorted p) (hn : p.config.sort &&& SORT_NO_EMPTY ≠ 0)
    (l : List Range) (hl : (Parser.parse env inp (withSort p 0)).2 = .ok l) :
    (Parser.parse env inp p).2 = .ok (l.filter fun r => decide (first r ≤ last r)) := by
  have hcfg : (withSort p 0).config = { p.config with sort := 0 } := rfl
  have hsort : ∀ q : Parser, q.config.sort &&& 0x0F = 0 → Parser.parse env inp q = Parser.parseUnsorted env inp q := by
    intro q hq
    rw [parse_eq]
    have : (fun l => PM.lift (Parser.sortResult q.config.sort l)) = fun l => (Pure.pure l : PM (List Range)) := by
      funext l
      rw [sortResult_unsorted _ hq]
      rfl
    rw [this, PM.bind_pure]
  rw [hsort p hs]
  rw [hsort _ (by rw [hcfg]; exact BitVec.zero_and)] at hl
  have hpost := (Parser.post_parseUnsorted env inp (withSort p 0) rfl).2 l hl
  have h := parseUnsorted_noEmpty env { p.config with sort := 0 } p.config.sort BitVec.zero_and hn inp (withSort p 0) p hcfg rfl l hl
  rw [h]
  congr 1
  refine List.filter_congr fun r hr => ?_
  have := isEmpty_first_last (hpost r hr).1
  cases he : r.isEmpty with
  | true => rw [he] at this; simp at this; simp; omega
  | false => rw [he] at this; simp at this; simp; omega

/-! ### The full statement -/

/-- C43, full statement: with any sort order the ranges are a permutation, or with `SORT_MERGE` match the same addresses. -/
def C43_claim : Prop := ∀ (env : ParseEnv) (inp : Str) (p : Parser) (l : List Range),
  (Parser.parse env inp (unsortedOf p)).2 = .ok l →
    ∃ l', (Parser.parse env inp p).2 = .ok l'
      ∧ (p.config.sort &&& SORT_MERGE = 0 → l'.Perm l)
      ∧ ∀ a : Addr, addressMatchRanges l' a = addressMatchRanges l a

/-- A parser which merges: masks, no lookup, addresses separated by commas. -/
def mergeParser : Parser :=
  ParserOp.runAll [(sampleEnv, .setAllow 2 true), (sampleEnv, .setAllow 9 true), (sampleEnv, .setSortOrder SORT_MERGE)] sampleParser

/-- Whether the ranges returned by a call match an address. -/
def resultMatches (r : Res (List Range)) (a : Addr) : Option Bool :=
  match r with
  | .ok l => match addressMatchRanges l a with
    | .ok b => some b
    | _ => none
  | _ => none

/-- C43: `SORT_MERGE` loses addresses: 10.5.5.5 is within 10.0.0.0/8, which is replaced by the range from 10.0.0.0 to
10.0.0.1 when it is merged with 10.0.0.1/8. -/
theorem C43_merge_loses_addresses_fails :
    resultMatches (Parser.parse sampleEnv "10.0.0.0/8,10.0.0.1/8".toList (unsortedOf mergeParser)).2 (sampleV4 10 5 5 5) = some true
      ∧ resultMatches (Parser.parse sampleEnv "10.0.0.0/8,10.0.0.1/8".toList mergeParser).2 (sampleV4 10 5 5 5) = some false := by
  refine ⟨?_, ?_⟩ <;> decide +kernel

/-- C43: `SORT_MERGE` throws for an IPv4 address next to an IPv6 address with a small mask, although both are read without
error. -/
theorem C43_merge_throws_fails :
    (∃ l, (Parser.parse sampleEnv "255.255.255.255,[::1:0:0:0]/64".toList (unsortedOf mergeParser)).2 = .ok l ∧ l.length = 2)
      ∧ (Parser.parse sampleEnv "255.255.255.255,[::1:0:0:0]/64".toList (unsortedOf mergeParser)).1.getErrorCount = 0
      ∧ (Parser.parse sampleEnv "255.255.255.255,[::1:0:0:0]/64".toList mergeParser).2 = .throw .outOfRange := by
  refine ⟨?_, ?_, ?_⟩
  · have h : (match (Parser.parse sampleEnv "255.255.255.255,[::1:0:0:0]/64".toList (unsortedOf mergeParser)).2 with
        | .ok l => l.length | _ => 0) = 2 := by decide +kernel
    revert h
    cases (Parser.parse sampleEnv "255.255.255.255,[::1:0:0:0]/64".toList (unsortedOf mergeParser)).2 with
    | ok l => exact fun h => ⟨l, rfl, h⟩
    | throw e => exact fun h => (nomatch h)
    | ub w => exact fun h => (nomatch h)
  · decide +kernel
  · decide +kernel

theorem C43_claim_fails : ¬ C43_claim := by
  intro h
  obtain ⟨⟨l, hl, _⟩, _, ht⟩ := C43_merge_throws_fails
  obtain ⟨l', hl', _⟩ := h _ _ _ l hl
  rw [ht] at hl'
  cases hl'

/-- A parser which sorts, with ranges of addresses. -/
def sortParser (sort : BitVec 64) : Parser :=
  ParserOp.runAll [(sampleEnv, .setAllow 2 true), (sampleEnv, .setAllow 6 true), (sampleEnv, .setSortOrder sort)] sampleParser

/-- The bounds of the ranges returned by a call. -/
def resultBounds (r : Res (List Range)) : Option (List (Nat × Nat)) :=
  match r with
  | .ok l => some (l.map fun r => (first r, last r))
  | _ => none

example : (sortParser (SORT_FULL ||| SORT_IPV6_FIRST)).config.sort &&& SORT_MERGE = 0
    ∧ resultBounds (Parser.parse sampleEnv "1.2.3.4,::5,::9-::3,::1".toList (unsortedOf (sortParser (SORT_FULL ||| SORT_IPV6_FIRST)))).2
      = some [(281470698652420, 281470698652420), (5, 5), (9, 3), (1, 1)]
    ∧ resultBounds (Parser.parse sampleEnv "1.2.3.4,::5,::9-::3,::1".toList (sortParser (SORT_FULL ||| SORT_IPV6_FIRST))).2
      = some [(1, 1), (5, 5), (281470698652420, 281470698652420), (9, 3)]
    ∧ resultBounds (Parser.parse sampleEnv "1.2.3.4,::5,::9-::3,::1".toList (sortParser SORT_NO_EMPTY)).2
      = some [(281470698652420, 281470698652420), (5, 5), (1, 1)]
    ∧ resultBounds (Parser.parse sampleEnv "1.2.3.4,::5,::9-::3,::1-::4".toList (sortParser SORT_MERGE)).2
      = some [(1, 5), (281470698652420, 281470698652420), (9, 3)] := by
  refine ⟨?_, ?_, ?_, ?_, ?_⟩ <;> decide +kernel

end Verif
