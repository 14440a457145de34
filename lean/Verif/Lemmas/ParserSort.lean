import Verif.Lemmas.ParserPost

/-!
# Lemmas about the parser: sorting and merging
-/

namespace Verif

open Spec

namespace Parser

/-- A comparator which meets the requirements of `std::stable_sort()`. -/
structure Orders (lt : Range → Range → Res Bool) (l : List Range) : Prop where
  answers : ∀ a ∈ l, ∀ b ∈ l, ∃ x, lt a b = .ok x
  irrefl : ∀ a ∈ l, lt a a = .ok false
  trans : ∀ a ∈ l, ∀ b ∈ l, ∀ c ∈ l, lt a b = .ok true → lt b c = .ok true → lt a c = .ok true
  unordered : ∀ a ∈ l, ∀ b ∈ l, ∀ c ∈ l, lt a b = .ok false → lt b a = .ok false → lt b c = .ok false → lt c b = .ok false →
    lt a c = .ok false ∧ lt c a = .ok false

theorem swo_of_orders {lt : Range → Range → Res Bool} {l : List Range} (h : Orders lt l) : isStrictWeakOrder lt l = true := by
  simp only [isStrictWeakOrder, Bool.and_eq_true, List.all_eq_true, decide_eq_true_eq, Bool.or_eq_true,
    Bool.not_eq_true']
  refine ⟨⟨⟨fun a ha b hb => ?_, h.irrefl⟩, fun a ha b hb c hc => ?_⟩, fun a ha b hb c hc => ?_⟩
  · obtain ⟨x, hx⟩ := h.answers a ha b hb
    rw [hx]; rfl
  · by_cases h1 : lt a b = .ok true
    · by_cases h2 : lt b c = .ok true
      · exact .inr (h.trans a ha b hb c hc h1 h2)
      · left; simp [h2]
    · left; simp [h1]
  · by_cases h1 : lt a b = .ok false
    · by_cases h2 : lt b a = .ok false
      · by_cases h3 : lt b c = .ok false
        · by_cases h4 : lt c b = .ok false
          · exact .inr (h.unordered a ha b hb c hc h1 h2 h3 h4)
          · left; simp [h4]
        · left; simp [h3]
      · left; simp [h2]
    · left; simp [h1]

/-- The order given to the sort. -/
def leOf (lt : Range → Range → Res Bool) (a b : Range) : Prop := ¬ lt b a = .ok true

theorem leOf_total {lt : Range → Range → Res Bool} {l : List Range} (h : Orders lt l) :
    ∀ a ∈ l, ∀ b ∈ l, leOf lt a b ∨ leOf lt b a := by
  intro a ha b hb
  by_cases h1 : lt b a = .ok true
  · right
    intro h2
    have := h.trans a ha b hb a ha h2 h1
    rw [h.irrefl a ha] at this
    cases this
  · exact .inl h1

theorem leOf_trans {lt : Range → Range → Res Bool} {l : List Range} (h : Orders lt l) :
    ∀ a ∈ l, ∀ b ∈ l, ∀ c ∈ l, leOf lt a b → leOf lt b c → leOf lt a c := by
  intro a ha b hb c hc h1 h2 h3
  have hf : ∀ x ∈ l, ∀ y ∈ l, lt x y ≠ .ok true → lt x y = .ok false := by
    intro x hx y hy hn
    obtain ⟨v, hv⟩ := h.answers x hx y hy
    cases v with
    | true => exact absurd hv hn
    | false => exact hv
  have h1 := hf b hb a ha h1
  have h2 := hf c hc b hb h2
  by_cases h4 : lt a b = .ok true
  · have := h.trans c hc a ha b hb h3 h4
    rw [h2] at this; cases this
  · by_cases h5 : lt b c = .ok true
    · have := h.trans b hb c hc a ha h5 h3
      rw [h1] at this; cases this
    · have := (h.unordered a ha b hb c hc (hf a ha b hb h4) h1 (hf b hb c hc h5) h2).2
      rw [h3] at this; cases this

/-- What a stable sort does. -/
structure Sorted (lt : Range → Range → Res Bool) (l l' : List Range) : Prop where
  perm : l'.Perm l
  order : l'.Pairwise fun a b => lt b a = .ok false
  stable : ∀ ys : List Range, ys.Sublist l → (ys.Pairwise fun a b => lt b a = .ok false) → ys.Sublist l'

theorem orderedInsert_perm (lt : Range → Range → Res Bool) (a : Range) (m : List Range) : (orderedInsert lt a m).Perm (a :: m) := by
  induction m with
  | nil => exact List.Perm.refl _
  | cons b m ih =>
    rw [orderedInsert]
    split
    · exact (ih.cons b).trans (List.Perm.swap ..)
    · exact List.Perm.refl _

theorem sort_perm (lt : Range → Range → Res Bool) (m : List Range) : (m.foldr (orderedInsert lt) []).Perm m := by
  induction m with
  | nil => exact List.Perm.refl _
  | cons a m ih => exact (orderedInsert_perm lt a _).trans (ih.cons a)

theorem orderedInsert_sorted {lt : Range → Range → Res Bool} {l : List Range} (h : Orders lt l) (a : Range) (ha : a ∈ l)
    (m : List Range) (hm : ∀ r ∈ m, r ∈ l) (hs : m.Pairwise (leOf lt)) : (orderedInsert lt a m).Pairwise (leOf lt) := by
  induction m with
  | nil => exact List.pairwise_singleton _ _
  | cons b m ih =>
    have hb := hm b (List.mem_cons_self ..)
    have hm' : ∀ r ∈ m, r ∈ l := fun r hr => hm r (List.mem_cons_of_mem _ hr)
    have hs' := List.pairwise_cons.1 hs
    rw [orderedInsert]
    split
    · rename_i hab
      refine List.pairwise_cons.2 ⟨fun r hr => ?_, ih hm' hs'.2⟩
      rcases List.mem_cons.1 ((orderedInsert_perm lt a m).mem_iff.1 hr) with rfl | hr
      · exact (leOf_total h r ha b hb).resolve_left (fun h => h hab)
      · exact hs'.1 r hr
    · rename_i hab
      refine List.pairwise_cons.2 ⟨fun r hr => ?_, hs⟩
      rcases List.mem_cons.1 hr with rfl | hr
      · exact hab
      · exact leOf_trans h a ha b hb r (hm' r hr) hab (hs'.1 r hr)

theorem sort_sorted {lt : Range → Range → Res Bool} {l : List Range} (h : Orders lt l) (m : List Range)
    (hm : ∀ r ∈ m, r ∈ l) : (m.foldr (orderedInsert lt) []).Pairwise (leOf lt) := by
  induction m with
  | nil => exact List.Pairwise.nil
  | cons a m ih =>
    have hm' : ∀ r ∈ m, r ∈ l := fun r hr => hm r (List.mem_cons_of_mem _ hr)
    exact orderedInsert_sorted h a (hm a (List.mem_cons_self ..)) _ (fun r hr => hm' r ((sort_perm lt m).mem_iff.1 hr)) (ih hm')

theorem sublist_orderedInsert (lt : Range → Range → Res Bool) (a : Range) (m : List Range) : m.Sublist (orderedInsert lt a m) := by
  induction m with
  | nil => exact List.nil_sublist _
  | cons b m ih =>
    rw [orderedInsert]
    split
    · exact ih.cons_cons b
    · exact List.sublist_cons_self ..

/-- What is not before `a` stays after it. -/
theorem cons_sublist_orderedInsert (lt : Range → Range → Res Bool) (a : Range) (ys m : List Range) (hy : ∀ y ∈ ys, leOf lt a y)
    (hs : ys.Sublist m) : (a :: ys).Sublist (orderedInsert lt a m) := by
  induction m with
  | nil =>
    cases hs
    exact List.Sublist.refl _
  | cons b m ih =>
    rw [orderedInsert]
    split
    · rename_i hab
      cases hs with
      | cons _ h => exact (ih h).cons b
      | cons_cons _ h => exact absurd hab (hy b (List.mem_cons_self ..))
    · exact hs.cons_cons a

theorem sublist_sort (lt : Range → Range → Res Bool) (ys l : List Range) (hy : ys.Pairwise (leOf lt)) (hs : ys.Sublist l) :
    ys.Sublist (l.foldr (orderedInsert lt) []) := by
  induction l generalizing ys with
  | nil => exact hs
  | cons a l ih =>
    cases hs with
    | cons _ h => exact (ih ys hy h).trans (sublist_orderedInsert lt a _)
    | cons_cons _ h =>
      rw [List.pairwise_cons] at hy
      exact cons_sublist_orderedInsert lt a _ _ hy.1 (ih _ hy.2 h)

theorem stableSort_ok {lt : Range → Range → Res Bool} {l : List Range} (h : Orders lt l) :
    ∃ l', stableSort lt l = .ok l' ∧ Sorted lt l l' := by
  have hf : ∀ x ∈ l, ∀ y ∈ l, (leOf lt y x ↔ lt x y = .ok false) := by
    intro x hx y hy
    obtain ⟨v, hv⟩ := h.answers x hx y hy
    simp only [leOf, hv, Res.ok.injEq]
    cases v <;> simp
  have hmem : ∀ r, r ∈ l.foldr (orderedInsert lt) [] → r ∈ l := fun r hr => (sort_perm lt l).mem_iff.1 hr
  refine ⟨l.foldr (orderedInsert lt) [], by rw [stableSort, if_pos (swo_of_orders h)], sort_perm lt l, ?_, ?_⟩
  · refine (sort_sorted h l fun _ hr => hr).imp_of_mem fun {a b} ha hb hab => ?_
    exact (hf b (hmem b hb) a (hmem a ha)).1 hab
  · intro ys hs hp
    exact sublist_sort lt ys l (hp.imp_of_mem fun {a b} ha hb hab => (hf b (hs.subset hb) a (hs.subset ha)).2 hab) hs

/-- Ranges which are not ordered keep their order. -/
theorem Sorted.filter_eq {lt : Range → Range → Res Bool} {l l' : List Range} (h : Sorted lt l l') (f : Range → Bool)
    (hf : ∀ a ∈ l, ∀ b ∈ l, f a = true → f b = true → lt b a = .ok false) : l'.filter f = l.filter f := by
  have hs : (l.filter f).Sublist l' := by
    refine h.stable _ List.filter_sublist ?_
    refine List.pairwise_iff_forall_sublist.2 fun {a b} hab => ?_
    have ha := List.mem_filter.1 (hab.subset (List.mem_cons_self ..))
    have hb := List.mem_filter.1 (hab.subset (List.mem_cons_of_mem _ (List.mem_cons_self ..)))
    exact hf a ha.1 b hb.1 ha.2 hb.2
  have hs' : (l.filter f).Sublist (l'.filter f) := by
    have := hs.filter f
    rwa [List.filter_filter, show (fun a => f a && f a) = f from funext fun a => Bool.and_self _] at this
  refine (hs'.eq_of_length ?_).symm
  exact ((h.perm.filter f).length_eq).symm

/-- `operator <` sorts any list of ranges with bounds. -/
theorem orders_lt {l : List Range} (hl : ∀ r ∈ l, Defined r) : Orders Range.lt l where
  answers a ha b hb := by
    obtain ⟨x, hx, _⟩ := C32_less_iff a b (hl a ha) (hl b hb)
    exact ⟨x, hx⟩
  irrefl a ha := (C32_strict_weak_order_partial a a a (hl a ha) (hl a ha) (hl a ha)).1
  trans a ha b hb c hc := (C32_strict_weak_order_partial a b c (hl a ha) (hl b hb) (hl c hc)).2.2.1
  unordered a ha b hb c hc := (C32_strict_weak_order_partial a b c (hl a ha) (hl b hb) (hl c hc)).2.2.2

/-- The rank of a range in the sort by family: the family asked for, the other one, the empty ranges. -/
def familyRank (v4First : Bool) (r : Range) : Nat :=
  if last r < first r then 2 else if decide (isV4 (first r) ∧ isV4 (last r)) = v4First then 0 else 1

theorem code_not_family (x : Spec.Rel) : code x ≠ .ipv4VsIpv6 ∧ code x ≠ .ipv6VsIpv4 ∧ code x ≠ .first := by
  cases x <;> decide

theorem familyFirst_iff (v4First : Bool) {a b : Range} (ha : Defined a) (hb : Defined b) :
    familyFirst (if v4First then .ipv4VsIpv6 else .ipv6VsIpv4) a b
      = .ok (decide (familyRank v4First a < familyRank v4First b)) := by
  rw [familyFirst, familyRank, familyRank]
  rcases Nat.lt_or_ge (last a) (first a) with h1 | h1 <;> rcases Nat.lt_or_ge (last b) (first b) with h2 | h2
  · rw [(C31_compare_degenerate a b false).2.1 ha hb h1 h2, if_pos h1, if_pos h2]
    cases v4First <;> rfl
  · rw [(C31_compare_degenerate a b false).2.2.1 ha hb h1 h2, if_pos h1, if_neg (Nat.not_lt.2 h2)]
    generalize decide (isV4 (first b) ∧ isV4 (last b)) = x
    cases v4First <;> cases x <;> rfl
  · rw [(C31_compare_degenerate a b false).2.2.2 ha hb h1 h2, if_neg (Nat.not_lt.2 h1), if_pos h2]
    generalize decide (isV4 (first a) ∧ isV4 (last a)) = x
    cases v4First <;> cases x <;> rfl
  · rw [if_neg (Nat.not_lt.2 h1), if_neg (Nat.not_lt.2 h2)]
    obtain ⟨c1, c2, c3⟩ := C31_compare_families a b ha hb h1 h2
    by_cases g1 : isV4 (first a) ∧ isV4 (last a) <;> by_cases g2 : isV4 (first b) ∧ isV4 (last b)
    · rw [c3 ⟨fun _ => g2, fun _ => g1⟩, compare_mixed ha hb h1 h2]
      obtain ⟨n1, n2, n3⟩ := code_not_family (cmpNat (first a) (last a) (first b) (last b))
      rw [decide_eq_true g1, decide_eq_true g2]
      cases v4First <;> simp [n1, n2, n3]
    · rw [c1 g1 g2, decide_eq_true g1, decide_eq_false g2]
      cases v4First <;> rfl
    · rw [c2 g1 g2, decide_eq_false g1, decide_eq_true g2]
      cases v4First <;> rfl
    · rw [c3 ⟨fun h => absurd h g1, fun h => absurd h g2⟩, compare_mixed ha hb h1 h2]
      obtain ⟨n1, n2, n3⟩ := code_not_family (cmpNat (first a) (last a) (first b) (last b))
      rw [decide_eq_false g1, decide_eq_false g2]
      cases v4First <;> simp [n1, n2, n3]

theorem orders_family (v4First : Bool) {l : List Range} (hl : ∀ r ∈ l, Defined r) :
    Orders (familyFirst (if v4First then .ipv4VsIpv6 else .ipv6VsIpv4)) l where
  answers a ha b hb := ⟨_, familyFirst_iff v4First (hl a ha) (hl b hb)⟩
  irrefl a ha := by rw [familyFirst_iff v4First (hl a ha) (hl a ha)]; simp
  trans a ha b hb c hc := by
    rw [familyFirst_iff v4First (hl a ha) (hl b hb), familyFirst_iff v4First (hl b hb) (hl c hc),
      familyFirst_iff v4First (hl a ha) (hl c hc)]
    simp only [Res.ok.injEq, decide_eq_true_eq]
    omega
  unordered a ha b hb c hc := by
    rw [familyFirst_iff v4First (hl a ha) (hl b hb), familyFirst_iff v4First (hl b hb) (hl a ha),
      familyFirst_iff v4First (hl b hb) (hl c hc), familyFirst_iff v4First (hl c hc) (hl b hb),
      familyFirst_iff v4First (hl a ha) (hl c hc), familyFirst_iff v4First (hl c hc) (hl a ha)]
    simp only [Res.ok.injEq, decide_eq_false_iff_not]
    omega

/-! ## Merging -/

/-- Some range of the list holds `v`. -/
def Covers (l : List Range) (v : Nat) : Prop := ∃ r ∈ l, between v (first r) (last r)

theorem covers_cons (r : Range) (l : List Range) (v : Nat) :
    Covers (r :: l) v ↔ between v (first r) (last r) ∨ Covers l v := by
  simp [Covers]

/-- What `union_if_possible()` may answer for two ranges with bounds. -/
theorem union_outcome {r s : Range} (hr : Defined r) :
    r.unionIfPossible s = .throw .outOfRange ∨ r.unionIfPossible s = .ok Range.default
      ∨ ∃ u, r.unionIfPossible s = .ok u ∧ Defined u ∧ first u = min (first r) (first s) ∧ last u = max (last r) (last s) := by
  obtain ⟨c1, c2, c3⟩ := union_cases r s hr
  by_cases hmeet : (first r ≤ last s ∧ first s ≤ last r) ∨ last s + 1 = first r ∨ first s = last r + 1
  · by_cases hm : UnionMasksAccepted r s
    · obtain ⟨u, e, hd, f, l, _⟩ := c3 hmeet hm
      exact .inr (.inr ⟨u, e, hd, f, l⟩)
    · exact .inl (c2 hmeet hm)
  · exact .inr (.inl (c1 hmeet))

theorem mergeLoop_outcome (cur : Range) (l : List Range) (hc : Defined cur) (hl : ∀ r ∈ l, Defined r) :
    mergeLoop cur l = .throw .outOfRange
      ∨ ∃ l', mergeLoop cur l = .ok l' ∧ (∀ r ∈ l', Defined r) ∧ (∀ v, Covers l' v ↔ Covers (cur :: l) v) := by
  induction l generalizing cur with
  | nil =>
    refine .inr ⟨[cur], rfl, fun r hr => ?_, fun v => Iff.rfl⟩
    rw [List.mem_singleton] at hr; rw [hr]; exact hc
  | cons next l ih =>
    have hn := hl next (List.mem_cons_self ..)
    have hl' : ∀ r ∈ l, Defined r := fun r hr => hl r (List.mem_cons_of_mem _ hr)
    have skip : ∀ u : Range, cur.unionIfPossible next = .ok u → (u.isDefined && !u.isEmpty) = false →
        mergeLoop cur (next :: l) = .throw .outOfRange
          ∨ ∃ l', mergeLoop cur (next :: l) = .ok l' ∧ (∀ r ∈ l', Defined r)
            ∧ (∀ v, Covers l' v ↔ Covers (cur :: next :: l) v) := by
      intro u hu hb
      rw [mergeLoop, hu]
      simp only [Res.bind_ok, hb, Bool.false_eq_true, if_false]
      rcases ih next hn hl' with h | ⟨l', h, hd, hcov⟩
      · left; rw [h]; rfl
      · right
        refine ⟨cur :: l', by rw [h]; rfl, ?_, fun v => ?_⟩
        · intro r hr
          rcases List.mem_cons.1 hr with hr | hr
          · rw [hr]; exact hc
          · exact hd r hr
        · rw [covers_cons, covers_cons, hcov]
    rcases union_outcome (s := next) hc with h | h | ⟨u, h, hu, _, _⟩
    · left; rw [mergeLoop, h]; rfl
    · exact skip _ h (by decide)
    · cases hb : (u.isDefined && !u.isEmpty) with
      | false => exact skip _ h hb
      | true =>
        rw [mergeLoop, h]
        simp only [Res.bind_ok, hb, if_true]
        rcases ih u hu hl' with h' | ⟨l', h', hd, hcov⟩
        · exact .inl h'
        · refine .inr ⟨l', h', hd, fun v => ?_⟩
          rw [hcov, covers_cons, covers_cons, covers_cons, C30_union_sound cur next u hc hn h hu v, or_assoc]

/-- Two non-empty ranges of which the second one starts after the first one, with a gap. -/
def Gap (r s : Range) : Prop := first r ≤ last r → first s ≤ last s → last r + 1 < first s

/-- Non-empty ranges first, by first address. -/
def StartsBefore (r s : Range) : Prop := (last r < first r → last s < first s) ∧ (first s ≤ last s → first r ≤ first s)

theorem startsBefore_of_lt {r s : Range} (hr : Defined r) (hs : Defined s) (h : s.lt r = .ok false) : StartsBefore r s := by
  obtain ⟨b, h1, h2⟩ := C32_less_iff s r hs hr
  rw [h1] at h
  cases h
  unfold StartsBefore
  have : ¬ (first s ≤ last s ∧ (last r < first r ∨ first s < first r ∨ (first s = first r ∧ last r < last s))) := by
    intro h
    cases h2.2 h
  omega

theorem mergeLoop_gaps (cur : Range) (l : List Range) (hc : Defined cur) (hl : ∀ r ∈ l, Defined r)
    (hs : ∀ r ∈ l, StartsBefore cur r) (hp : l.Pairwise StartsBefore) (l' : List Range) (h : mergeLoop cur l = .ok l') :
    l'.Pairwise Gap ∧ ∀ r ∈ l', first cur ≤ last cur → first r ≤ last r → first cur ≤ first r := by
  induction l generalizing cur l' with
  | nil =>
    cases h
    refine ⟨List.pairwise_singleton .., fun r hr _ _ => ?_⟩
    rw [List.mem_singleton] at hr
    rw [hr]
    exact Nat.le_refl _
  | cons next l ih =>
    have hn := hl next (List.mem_cons_self ..)
    have hl' : ∀ r ∈ l, Defined r := fun r hr => hl r (List.mem_cons_of_mem _ hr)
    have hsn := hs next (List.mem_cons_self ..)
    rw [List.pairwise_cons] at hp
    rw [mergeLoop] at h
    obtain ⟨c1, c2, c3⟩ := union_cases cur next hc
    have skip : (first cur ≤ last cur → first next ≤ last next → last cur + 1 < first next) →
        ∀ t, mergeLoop next l = .ok t → (cur :: t).Pairwise Gap
          ∧ ∀ r ∈ cur :: t, first cur ≤ last cur → first r ≤ last r → first cur ≤ first r := by
      intro hgap t ht
      obtain ⟨i1, i2⟩ := ih next hn hl' hp.1 hp.2 t ht
      -- an element of what follows is not empty only if `next` is not
      have hne : ∀ r ∈ t, first r ≤ last r → first next ≤ last next := by
        intro r hr hrn
        rcases mergeLoop_outcome next l hn hl' with h' | ⟨t', h', _, hcov⟩
        · rw [ht] at h'; cases h'
        · rw [ht] at h'; cases h'
          have hv := (hcov (first r)).1 ⟨r, hr, Nat.le_refl _, hrn⟩
          rw [covers_cons] at hv
          rcases hv with hv | ⟨x, hx, hv⟩
          · exact Nat.le_trans hv.1 hv.2
          · have := (hp.1 x hx).1
            have : first x ≤ last x := Nat.le_trans hv.1 hv.2
            omega
      refine ⟨List.pairwise_cons.2 ⟨fun r hr h1 h2 => ?_, i1⟩, fun r hr h1 h2 => ?_⟩
      · have h3 := hne r hr h2
        have h4 := i2 r hr h3 h2
        have := hgap h1 h3
        omega
      · rcases List.mem_cons.1 hr with hr | hr
        · rw [hr]; exact Nat.le_refl _
        · have h3 := hne r hr h2
          have h4 := i2 r hr h3 h2
          have := hgap h1 h3
          omega
    by_cases hmeet : (first cur ≤ last next ∧ first next ≤ last cur) ∨ last next + 1 = first cur ∨ first next = last cur + 1
    · by_cases hm : UnionMasksAccepted cur next
      · obtain ⟨u, e, hd, f, la, _⟩ := c3 hmeet hm
        rw [e] at h
        simp only [Res.bind_ok] at h
        have hue : u.isEmpty = true ↔ last u < first u := isEmpty_first_last hd
        cases hb : u.isEmpty with
        | false =>
          rw [if_pos (by rw [(defined_isDefined u).2 hd, hb]; rfl)] at h
          have hun : ¬ last u < first u := by rw [← hue, hb]; exact Bool.false_ne_true
          have hsu : ∀ r ∈ l, StartsBefore u r := by
            intro r hr
            have a1 := hs r (List.mem_cons_of_mem _ hr)
            have a2 := hp.1 r hr
            unfold StartsBefore at a1 a2 hsn ⊢
            omega
          obtain ⟨i1, i2⟩ := ih u hd hl' hsu hp.2 l' h
          refine ⟨i1, fun r hr h1 h2 => ?_⟩
          have := i2 r hr (by omega) h2
          unfold StartsBefore at hsn
          -- the union starts where `cur` does
          have hfu : first cur ≤ first u := by
            by_cases h3 : first next ≤ last next
            · have := hsn.2 h3
              omega
            · have := (C30_union_sound cur next u hc hn e hd (first u)).1 ⟨Nat.le_refl _, by omega⟩
              unfold between at this
              omega
          omega
        | true =>
          rw [if_neg (by rw [hb]; simp)] at h
          cases ht : mergeLoop next l with
          | throw x => rw [ht] at h; cases h
          | ub w => rw [ht] at h; cases h
          | ok t =>
            rw [ht] at h
            cases h
            refine skip (fun h1 h2 => ?_) t ht
            have := hue.1 hb
            omega
      · rw [c2 hmeet hm] at h
        cases h
    · rw [c1 hmeet] at h
      simp only [Res.bind_ok] at h
      rw [if_neg (by decide)] at h
      cases ht : mergeLoop next l with
      | throw x => rw [ht] at h; cases h
      | ub w => rw [ht] at h; cases h
      | ok t =>
        rw [ht] at h
        cases h
        refine skip (fun h1 h2 => ?_) t ht
        have := hsn.2 h2
        omega

/-! ## The sorting options do not change what is read -/

section
variable {c c' : Config}

theorem rel_parseUnsorted_text (hsep : separators c' = separators c) (hcom : commentChars c' = commentChars c)
    (hf : c'.flags .multiAddressesNewlines = c.flags .multiAddressesNewlines) (h : AgreeMask c c') (env : ParseEnv) (inp : Str) :
    Rel c c' (parseUnsorted env inp) (parseUnsorted env inp) := by
  have hlist : ∀ (fuel : Nat) (rest : Str) (result : List Range),
      Rel c c' (parseList env fuel rest result) (parseList env fuel rest result) := by
    intro fuel
    induction fuel with
    | zero => exact fun _ _ => rel_pure _ _ _
    | succ n ih =>
      intro rest result
      have h1 : ∀ e, entryText c' e = entryText c e := fun e => by simp only [entryText, hcom]
      have h2 : ∀ e, skipLine c' e = skipLine c e := fun e => by simp only [skipLine, hcom, hf]
      rw [parseList]
      refine rel_config ?_
      dsimp only
      rw [hsep, h1, h2]
      split
      · exact rel_pure _ _ _
      · split
        · refine rel_bind ?_ fun l => ih _ _
          rw [parseEntry]
          split
          · exact rel_parseCidr h _ _ _
          · exact rel_pure _ _ _
        · exact ih _ _
  rw [parseUnsorted]
  refine rel_config ?_
  rw [hsep]
  split
  · rw [parseSingle]
    refine rel_config ?_
    have h1 : singleEnd c' inp = singleEnd c inp := by simp only [singleEnd, hcom]
    dsimp only
    rw [h1]
    split
    · exact rel_bind (rel_lift _ _ _) fun _ => rel_parseCidr h _ _ _
    · exact rel_parseCidr h _ _ _
  · exact hlist _ _ _

theorem rel_parseUnsorted (hf : c'.flags = c.flags) (h : AgreeMask c c') (env : ParseEnv) (inp : Str) :
    Rel c c' (parseUnsorted env inp) (parseUnsorted env inp) :=
  rel_parseUnsorted_text (by simp only [separators, hf]) (by simp only [commentChars, hf]) (by rw [hf]) h env inp

/-! ## Leaving out the empty ranges -/

/-- None of the ranges is empty. -/
def NonEmpty (r : Range) : Prop := r.isEmpty = false

/-- The computations give the same ranges, none of them empty, except that the first one may give a single range which
is empty, and the second one none. -/
def Drops (c c' : Config) (m m' : PM (List Range)) : Prop :=
  ∀ p p' : Parser, p.config = c → p'.config = c' → p.error = p'.error → p.errorCount = p'.errorCount →
    (m p).1.error = (m' p').1.error ∧ (m p).1.errorCount = (m' p').1.errorCount
      ∧ (m p).1.config = c ∧ (m' p').1.config = c'
      ∧ (((m p).2 = (m' p').2 ∧ ∀ l, (m p).2 = .ok l → All NonEmpty l)
          ∨ ∃ x, x.isEmpty = true ∧ (m p).2 = .ok [x] ∧ (m' p').2 = .ok [])

theorem drops_of_rel {m m' : PM (List Range)} (h : Rel c c' m m') (hp : Post c m (All NonEmpty)) : Drops c c' m m' := by
  intro p p' h1 h2 h3 h4
  obtain ⟨e1, e2, e3, e4, e5⟩ := h p p' h1 h2 h3 h4
  exact ⟨e2, e3, e4, e5, .inl ⟨e1, (hp p h1).2⟩⟩

theorem drops_bind {α : Type} {m m' : PM α} {f f' : α → PM (List Range)} {Q : α → Prop} (h : Rel c c' m m') (hp : Post c m Q)
    (hf : ∀ a, Q a → Drops c c' (f a) (f' a)) : Drops c c' (m >>= f) (m' >>= f') := by
  intro p p' h1 h2 h3 h4
  obtain ⟨e1, e2, e3, e4, e5⟩ := h p p' h1 h2 h3 h4
  have hq := (hp p h1).2
  simp only [PM.bind_def]
  rcases hm : m p with ⟨q, r⟩
  rcases hm' : m' p' with ⟨q', r'⟩
  rw [hm, hm'] at e1 e2 e3
  rw [hm] at e4 hq
  rw [hm'] at e5
  dsimp only at e1 e2 e3 e4 e5 hq
  subst e1
  cases r with
  | ok a => exact hf a (hq a rfl) q q' e4 e5 e2 e3
  | throw e => exact ⟨e2, e3, e4, e5, .inl ⟨rfl, fun _ h => by cases h⟩⟩
  | ub w => exact ⟨e2, e3, e4, e5, .inl ⟨rfl, fun _ h => by cases h⟩⟩

theorem drops_config {f f' : Config → PM (List Range)} (h : Drops c c' (f c) (f' c')) :
    Drops c c' (PM.config >>= f) (PM.config >>= f') := by
  intro p p' h1 h2 h3 h4
  rw [PM.config_bind, PM.config_bind, h1, h2]
  exact h p p' h1 h2 h3 h4

theorem nonEmpty_single {env : ParseEnv} {c : Config} {inp : Str} {r : Range} (h : Single env c inp r) : NonEmpty r := by
  simp [NonEmpty, Range.isEmpty, Range.isRange, h.2.1]

theorem nonEmpty_swap {env : ParseEnv} {c : Config} {inp : Str} {r : Range} (h : Single env c inp r) : NonEmpty r.swapFromTo := by
  simp [NonEmpty, Range.isEmpty, Range.isRange, Range.swapFromTo, h.2.1]

theorem drops_pure {l : List Range} (h : All NonEmpty l) : Drops c c' (Pure.pure l) (Pure.pure l) :=
  drops_of_rel (rel_pure _ _ _) (post_pure c h)

theorem drops_emit (msg : Str) : Drops c c' (emitError msg >>= fun _ => (Pure.pure [] : PM (List Range)))
    (emitError msg >>= fun _ => (Pure.pure [] : PM (List Range))) :=
  drops_of_rel (rel_bind (rel_emit _ _ _) fun _ => rel_pure _ _ _) (post_emit_then _)

variable (h : AgreeBase c c') (h0 : c.sort &&& SORT_NO_EMPTY = 0) (h1 : c'.sort &&& SORT_NO_EMPTY ≠ 0)
include h h0 h1

theorem drops_parseAddressRangePort (env : ParseEnv) (addresses port : Str) (v6 : Bool) :
    Drops c c' (parseAddressRangePort env addresses port [] v6) (parseAddressRangePort env addresses port [] v6) := by
  rw [parseAddressRangePort]
  refine drops_config ?_
  rw [h.addressRange]
  cases hs : (if c'.flags .addressRange then splitFirst '-' addresses else none) with
  | none =>
    exact drops_of_rel (rel_parseAddressPort h _ _ _ _ _)
      (post_mono (post_parseAddressPort (inp := addresses ++ ((':' :: port) ++ [']'])) env _ (List.prefix_append ..).isInfix
        fun _ => ⟨⟨addresses, [']'], by simp⟩, fun _ _ => .inr (.inl (by simp))⟩) fun l hl r hr => nonEmpty_single (hl r hr))
  | some x =>
    obtain ⟨frm, to⟩ := x
    have hrel := fun w a => rel_parseBound h env w a port v6
    have hpost := fun w a => post_parseBound (c := c) (port := port) (inp := a ++ ((':' :: port) ++ [']'])) env w v6 (List.prefix_append ..).isInfix
      fun _ => ⟨⟨a, [']'], by simp⟩, fun _ _ => .inr (.inl (by simp))⟩
    cases frm with
    | nil =>
      cases to with
      | nil => exact drops_emit _
      | cons y to =>
        refine drops_bind (hrel _ _) (hpost _ _) fun o ho => ?_
        cases o with
        | none => exact drops_pure (all_nil _)
        | some r => exact drops_pure (all_single (nonEmpty_swap (ho r rfl)))
    | cons y frm =>
      cases to with
      | nil =>
        refine drops_bind (hrel _ _) (hpost _ _) fun o ho => ?_
        cases o with
        | none => exact drops_pure (all_nil _)
        | some r => exact drops_pure (all_single (nonEmpty_single (ho r rfl)))
      | cons z to =>
        refine drops_bind (hrel _ _) (hpost _ _) fun o ho => ?_
        cases o with
        | none => exact drops_pure (all_nil _)
        | some r =>
          refine drops_bind (hrel _ _) (hpost _ _) fun o ho' => ?_
          cases o with
          | none => exact drops_pure (all_nil _)
          | some t =>
            dsimp only
            rw [if_pos (by simp [h0])]
            cases he : (r.setTo t.swapFromTo.hi).isEmpty with
            | false =>
              rw [if_pos (by simp)]
              exact drops_pure (all_single he)
            | true =>
              rw [if_neg (by rw [Bool.not_true, Bool.or_false, decide_eq_false h1]; exact Bool.false_ne_true)]
              intro p p' e1 e2 e3 e4
              exact ⟨e3, e4, e1, e2, .inr ⟨_, he, rfl, rfl⟩⟩

theorem drops_parseAddress4 (env : ParseEnv) (inp : Str) :
    Drops c c' (parseAddress4 env inp []) (parseAddress4 env inp []) := by
  rw [parseAddress4]
  refine drops_config ?_
  rw [h.port, h.requiredPort]
  repeat' (first | exact drops_parseAddressRangePort h h0 h1 _ _ _ _ | exact drops_emit _ | split)

theorem drops_parseAddress6 (env : ParseEnv) (inp : Str) (n : Nat) :
    Drops c c' (parseAddress6 env inp n []) (parseAddress6 env inp n []) := by
  rw [parseAddress6]
  refine drops_config ?_
  rw [h.port, h.requiredPort]
  repeat' (first | exact drops_parseAddressRangePort h h0 h1 _ _ _ _ | exact drops_emit _
                 | exact drops_of_rel (rel_throw _ _ _) (post_throw _ _ _) | split)

omit h h0 h1 in
/-- The same with the family of the syntax. -/
def DropsP (c c' : Config) (m m' : PM (Bool × List Range)) : Prop :=
  ∀ p p' : Parser, p.config = c → p'.config = c' → p.error = p'.error → p.errorCount = p'.errorCount →
    (m p).1.error = (m' p').1.error ∧ (m p).1.errorCount = (m' p').1.errorCount
      ∧ (m p).1.config = c ∧ (m' p').1.config = c'
      ∧ (((m p).2 = (m' p').2 ∧ ∀ x, (m p).2 = .ok x → All NonEmpty x.2)
          ∨ ∃ b x, x.isEmpty = true ∧ (m p).2 = .ok (b, [x]) ∧ (m' p').2 = .ok (b, []))

omit h h0 h1 in
theorem dropsP_of {m m' : PM (List Range)} (b : Bool) (hd : Drops c c' m m') :
    DropsP c c' (m >>= fun l => (Pure.pure (b, l) : PM (Bool × List Range)))
      (m' >>= fun l => (Pure.pure (b, l) : PM (Bool × List Range))) := by
  intro p p' e1 e2 e3 e4
  obtain ⟨f1, f2, f3, f4, f5⟩ := hd p p' e1 e2 e3 e4
  simp only [PM.bind_def]
  rcases hm : m p with ⟨q, r⟩
  rcases hm' : m' p' with ⟨q', r'⟩
  rw [hm, hm'] at f1 f2 f5
  rw [hm] at f3
  rw [hm'] at f4
  dsimp only at f1 f2 f3 f4 f5
  rcases f5 with ⟨g1, g2⟩ | ⟨x, g1, g2, g3⟩
  · subst g1
    cases r with
    | ok l => exact ⟨f1, f2, f3, f4, .inl ⟨rfl, fun x hx => by cases hx; exact g2 l rfl⟩⟩
    | throw e => exact ⟨f1, f2, f3, f4, .inl ⟨rfl, fun _ hx => by cases hx⟩⟩
    | ub w => exact ⟨f1, f2, f3, f4, .inl ⟨rfl, fun _ hx => by cases hx⟩⟩
  · subst g2
    subst g3
    exact ⟨f1, f2, f3, f4, .inr ⟨b, x, g1, rfl, rfl⟩⟩

omit h h0 h1 in
theorem dropsP_config {f f' : Config → PM (Bool × List Range)} (hd : DropsP c c' (f c) (f' c')) :
    DropsP c c' (PM.config >>= f) (PM.config >>= f') := by
  intro p p' h1 h2 h3 h4
  rw [PM.config_bind, PM.config_bind, h1, h2]
  exact hd p p' h1 h2 h3 h4

theorem drops_parseAddress (env : ParseEnv) (inp mask : Str) :
    DropsP c c' (parseAddress env inp mask []) (parseAddress env inp mask []) := by
  have h4 := dropsP_of true (drops_parseAddress4 h h0 h1 env inp)
  have h6 := dropsP_of false (drops_parseAddress6 h h0 h1 env inp (inp.count ':'))
  rw [parseAddress]
  refine dropsP_config ?_
  dsimp only
  rw [h.port, h.requiredPort, h.address4, h.address6]
  repeat' (first | exact h4 | exact h6 | split)

omit h h0 h1 in
/-- Masks change no bound. -/
theorem maskLoop_isEmpty (env : ParseEnv) (mask : Str) (v4 : Bool) (l : List Range) :
    Post c (maskLoop env mask v4 l) fun l' => l'.map Range.isEmpty = l.map Range.isEmpty := by
  induction l with
  | nil => exact post_pure c rfl
  | cons x l ih =>
    rw [maskLoop]
    refine post_config (post_bind (post_parseMask env _ _ _) fun a ha => ?_)
    refine post_bind ih fun l' hl' => post_pure c ?_
    rw [List.map_cons, List.map_cons, hl']
    congr 1
    have : Addr.gt a x.hi = Addr.gt x.lo x.hi := by
      have e : Addr.cmp a x.hi = Addr.cmp x.lo x.hi := by rw [Addr.cmp, Addr.cmp, Addr.bytes, ha.2.2.1]; rfl
      rw [Addr.gt, Addr.gt, e]
    unfold Range.isEmpty
    dsimp only
    rw [this]
    rfl

/-- What is returned for an entry when the empty ranges are left out. -/
theorem parseCidr_noEmpty (hm : c.flags .mask = c'.flags .mask) (ham : c.flags .addressMask = c'.flags .addressMask)
    (h4 : c.defaultMask4 = c'.defaultMask4) (h6 : c.defaultMask6 = c'.defaultMask6)
    (env : ParseEnv) (inp : Str) (p p' : Parser) (hp : p.config = c) (hp' : p'.config = c') (l : List Range)
    (hl : (parseCidr env inp [] p).2 = .ok l) :
    (parseCidr env inp [] p').2 = .ok (l.filter fun r => !r.isEmpty) := by
  have hnone : ∀ l : List Range, All NonEmpty l → l.filter (fun r => !r.isEmpty) = l := by
    intro l hl
    rw [List.filter_eq_self]
    intro r hr
    rw [hl r hr]; rfl
  -- the outcome does not depend on the errors there were
  suffices hsame : ∀ p p' : Parser, p.config = c → p'.config = c' → p.error = p'.error → p.errorCount = p'.errorCount →
      ∀ l, (parseCidr env inp [] p).2 = .ok l → (parseCidr env inp [] p').2 = .ok (l.filter fun r => !r.isEmpty) by
    obtain ⟨errs, r, hlog⟩ := logging_parseCidr env c' inp []
    have h1 := hsame p { p with config := c' } hp rfl rfl rfl l hl
    rw [hlog _ rfl] at h1
    rw [hlog p' hp']
    exact h1
  intro p p' e1 e2 e3 e4 l hl
  have hd := fun t m => drops_parseAddress h h0 h1 env t m p p' e1 e2 e3 e4
  rw [parseCidr, PM.config_bind, e1] at hl
  rw [parseCidr, PM.config_bind, e2, ← hm]
  by_cases hmask : c.flags .mask = true
  · rw [if_pos hmask] at hl ⊢
    revert hl
    generalize (splitFirst '/' (trimString inp)).getD (trimString inp, []) = y
    intro hl
    have hec : ∀ (q : Parser) (g : Int → PM (List Range)), (errorCountNow >>= g) q = g q.errorCount q := fun _ _ => rfl
    dsimp only at hl ⊢
    rw [hec] at hl ⊢
    obtain ⟨f1, f2, f3, f4, f5⟩ := hd y.1 y.2
    rw [PM.bind_def] at hl ⊢
    rcases hx : parseAddress env y.1 y.2 [] p with ⟨q, r⟩
    rcases hx' : parseAddress env y.1 y.2 [] p' with ⟨q', r'⟩
    rw [hx, hx'] at f1 f2 f5
    rw [hx] at f3 hl
    rw [hx'] at f4
    dsimp only at f1 f2 f3 f4 f5 hl ⊢
    have hpost := (post_parseAddress (c := c) (inp := y.1) env y.2 (List.infix_refl _) p e1).2
    rcases f5 with ⟨g1, g2⟩ | ⟨b, x, g1, g2, g3⟩
    · subst g1
      cases r with
      | throw e => cases hl
      | ub w => cases hl
      | ok z =>
        have hrel := rel_maskLoop ham h4 (by rw [usedMask6, usedMask6, h6]) env y.2 z.1 z.2 q q' f3 f4 f1 f2
        have hmap := (maskLoop_isEmpty (c := c) env y.2 z.1 z.2 q f3).2
        dsimp only at hl ⊢
        rw [PM.bind_def] at hl ⊢
        rcases hy : maskLoop env y.2 z.1 z.2 q with ⟨s, t⟩
        rcases hy' : maskLoop env y.2 z.1 z.2 q' with ⟨s', t'⟩
        rw [hy, hy'] at hrel
        rw [hy] at hl hmap
        dsimp only at hl hrel hmap ⊢
        obtain ⟨k1, k2, k3, k4, k5⟩ := hrel
        subst k1
        cases t with
        | throw e => cases hl
        | ub w => cases hl
        | ok m =>
          dsimp only at hl ⊢
          rw [hec] at hl ⊢
          rw [← k3, ← e4]
          have hne : All NonEmpty m := by
            intro r hr
            have h1 := hmap m rfl
            have h2 : r.isEmpty ∈ m.map Range.isEmpty := List.mem_map_of_mem hr
            rw [h1, List.mem_map] at h2
            obtain ⟨r0, hr0, h3⟩ := h2
            rw [NonEmpty, ← h3]
            exact g2 z rfl r0 hr0
          by_cases hc : p.errorCount = s.errorCount
          · rw [if_pos hc] at hl ⊢
            cases hl
            rw [List.nil_append, hnone m hne]
            rfl
          · rw [if_neg hc] at hl ⊢
            cases hl
            rfl
    · subst g2
      subst g3
      dsimp only at hl ⊢
      have hmap := (maskLoop_isEmpty (c := c) env y.2 b [x] q f3).2
      rw [PM.bind_def] at hl
      rcases hy : maskLoop env y.2 b [x] q with ⟨s, t⟩
      rw [hy] at hl hmap
      dsimp only at hl hmap
      have hright : ((maskLoop env y.2 b [] >>= fun addrMask => errorCountNow >>= fun now =>
          if p'.errorCount = now then (Pure.pure ([] ++ addrMask) : PM (List Range)) else Pure.pure []) q').2 = .ok [] := by
        have e : maskLoop env y.2 b [] = Pure.pure [] := rfl
        rw [e, PM.pure_bind, hec]
        split <;> rfl
      cases t with
      | throw e => cases hl
      | ub w => cases hl
      | ok m =>
        have h1 := hmap m rfl
        dsimp only at hl
        rw [hec] at hl
        have hfil : l.filter (fun r => !r.isEmpty) = [] := by
          rw [List.filter_eq_nil_iff]
          intro r hr
          by_cases hc : p.errorCount = s.errorCount
          · rw [if_pos hc] at hl
            cases hl
            rw [List.nil_append] at hr
            have h2 : r.isEmpty ∈ m.map Range.isEmpty := List.mem_map_of_mem hr
            rw [h1] at h2
            simp only [List.map_cons, List.map_nil, List.mem_singleton, g1] at h2
            rw [h2]
            decide
          · rw [if_neg hc] at hl
            cases hl
            cases hr
        rw [hfil]
        exact hright
  · rw [if_neg hmask] at hl ⊢
    dsimp only at hl ⊢
    obtain ⟨f1, f2, f3, f4, f5⟩ := hd (trimString inp) []
    rw [PM.bind_def] at hl ⊢
    rcases hx : parseAddress env (trimString inp) [] [] p with ⟨q, r⟩
    rcases hx' : parseAddress env (trimString inp) [] [] p' with ⟨q', r'⟩
    rw [hx, hx'] at f5
    rw [hx] at hl
    dsimp only at f5 hl ⊢
    rcases f5 with ⟨g1, g2⟩ | ⟨b, x, g1, g2, g3⟩
    · subst g1
      cases r with
      | throw e => cases hl
      | ub w => cases hl
      | ok z =>
        cases hl
        rw [hnone _ (g2 z rfl)]
        rfl
    · subst g2
      subst g3
      cases hl
      simp [g1]

end

end Parser
end Verif
