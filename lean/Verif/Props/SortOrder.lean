import Verif.Props.ParserSort

/-!
# C134: the order of the list which the parser returns

The standard says what `std::stable_sort()` does, not how. There is only one list which is sorted and in which the elements on a level
keep their order, so that the list does not depend on the implementation.
-/

namespace Verif

open Spec

namespace Spec

open scoped Classical

/-- Neither comes before the other. -/
def OnLevel (before : Range → Range → Prop) (a b : Range) : Prop := ¬ before a b ∧ ¬ before b a

/-- What the standard says of the result `l'` of a stable sort of `l`: a permutation, in order, in which the elements on a level with
any one of them are as they were. -/
structure StableOrder (before : Range → Range → Prop) (l l' : List Range) : Prop where
  perm : l'.Perm l
  order : l'.Pairwise fun a b => ¬ before b a
  stable : ∀ x ∈ l, l'.filter (fun r => decide (OnLevel before x r)) = l.filter (fun r => decide (OnLevel before x r))

/-- A range has to come before another one: it is of an earlier group (see `group`), or, with `SORT_FULL`, of the same group and before
it in this order (see `FullOrder`). -/
def Precedes (sort : BitVec 64) (r s : Range) : Prop :=
  group sort r < group sort s ∨ (group sort r = group sort s ∧ sort &&& SORT_FULL ≠ 0 ∧ ¬ FullOrder s r)

/-- The flags without the two which put a family first. -/
def withoutFamily (sort : BitVec 64) : BitVec 64 := sort &&& ~~~ (SORT_IPV4_FIRST ||| SORT_IPV6_FIRST)

/-- Only the flags which put a family first. -/
def onlyFamily (sort : BitVec 64) : BitVec 64 := sort &&& (SORT_IPV4_FIRST ||| SORT_IPV6_FIRST)

end Spec

open scoped Classical in
/-- C134: there is at most one result. -/
theorem C134_unique (before : Range → Range → Prop) (l l₁ l₂ : List Range) (hi : ∀ r ∈ l, ¬ before r r)
    (h₁ : StableOrder before l l₁) (h₂ : StableOrder before l l₂) : l₁ = l₂ := by
  have key : ∀ l₁ l₂ : List Range, (∀ r ∈ l₁, ¬ before r r) → l₁.Perm l₂ → (l₁.Pairwise fun a b => ¬ before b a)
      → (l₂.Pairwise fun a b => ¬ before b a)
      → (∀ x ∈ l₁, l₁.filter (fun r => decide (OnLevel before x r)) = l₂.filter (fun r => decide (OnLevel before x r))) → l₁ = l₂ := by
    intro l₁
    induction l₁ with
    | nil => exact fun l₂ _ hp _ _ _ => hp.symm.eq_nil.symm
    | cons a t ih =>
      intro l₂ hi hp h1 h2 hf
      cases l₂ with
      | nil => exact absurd hp.eq_nil (by simp)
      | cons b t' =>
        have ha := hi a List.mem_cons_self
        have hab : OnLevel before a b := by
          by_cases e : a = b
          · subst e; exact ⟨ha, ha⟩
          · have hb : b ∈ t := (List.mem_cons.1 (hp.mem_iff.2 List.mem_cons_self)).resolve_left fun h => e h.symm
            have ha' : a ∈ t' := (List.mem_cons.1 (hp.mem_iff.1 List.mem_cons_self)).resolve_left e
            exact ⟨(List.pairwise_cons.1 h2).1 a ha', (List.pairwise_cons.1 h1).1 b hb⟩
        have e := hf a List.mem_cons_self
        rw [List.filter_cons_of_pos (by simpa using ⟨ha, ha⟩), List.filter_cons_of_pos (by simpa using hab)] at e
        obtain rfl : a = b := (List.cons.inj e).1
        rw [ih t' (fun r hr => hi r (List.mem_cons_of_mem _ hr)) hp.cons_inv (List.pairwise_cons.1 h1).2 (List.pairwise_cons.1 h2).2
          fun x hx => ?_]
        have e := hf x (List.mem_cons_of_mem _ hx)
        by_cases h : OnLevel before x a
        · rw [List.filter_cons_of_pos (by simpa using h), List.filter_cons_of_pos (by simpa using h)] at e
          exact (List.cons.inj e).2
        · rw [List.filter_cons_of_neg (by simpa using h), List.filter_cons_of_neg (by simpa using h)] at e
          exact e
  refine key l₁ l₂ (fun r hr => hi r (h₁.perm.mem_iff.1 hr)) (h₁.perm.trans h₂.perm.symm) h₁.order h₂.order fun x hx => ?_
  have hx := h₁.perm.mem_iff.1 hx
  rw [h₁.stable x hx, h₂.stable x hx]

theorem precedes_irrefl (s : BitVec 64) (r : Range) : ¬ Precedes s r r := by
  rintro (h | ⟨_, _, h⟩)
  · exact Nat.lt_irrefl _ h
  · exact h ⟨fun h => h, fun _ => .inr ⟨rfl, Nat.le_refl _⟩⟩

/-- The filter by level is one within a group. -/
theorem filter_group (s : BitVec 64) {l l' : List Range} (P : Range → Bool) (k : Nat) (hP : ∀ r, P r = true → group s r = k)
    (h : ∀ k, l'.filter (fun r => decide (group s r = k)) = l.filter (fun r => decide (group s r = k))) : l'.filter P = l.filter P := by
  have hf : ∀ m : List Range, m.filter P = (m.filter (fun r => decide (group s r = k))).filter P := by
    intro m
    rw [List.filter_filter]
    congr 1
    funext r
    cases hr : P r with
    | true => rw [decide_eq_true (hP r hr)]; rfl
    | false => rfl
  rw [hf l', hf l, h k]

theorem level_group {s : BitVec 64} {x r : Range} (h : OnLevel (Precedes s) x r) : group s r = group s x := by
  have h1 : ¬ group s x < group s r := fun h' => h.1 (.inl h')
  have h2 : ¬ group s r < group s x := fun h' => h.2 (.inl h')
  omega

theorem level_order {s : BitVec 64} {x r : Range} (hs : s &&& SORT_FULL ≠ 0) (h : OnLevel (Precedes s) x r) :
    FullOrder x r ∧ FullOrder r x := by
  have hg := level_group h
  exact ⟨Classical.not_not.1 fun h' => h.2 (.inr ⟨hg, hs, h'⟩), Classical.not_not.1 fun h' => h.1 (.inr ⟨hg.symm, hs, h'⟩)⟩

open scoped Classical in
/-- The result of the sort is such a list. -/
theorem sortResult_stable (s : BitVec 64) (hm : s &&& SORT_MERGE = 0) {l : List Range} (hl : ∀ r ∈ l, Defined r) :
    ∃ l', Parser.sortResult s l = .ok l' ∧ StableOrder (Precedes s) l l' := by
  obtain ⟨l', e, hp, hg, hfull, _, _⟩ := sortResult_sorts s hm hl
  refine ⟨l', e, hp, ?_, ?_⟩
  · by_cases hs : s &&& SORT_FULL = 0
    · refine hg.imp fun {a b} hab => ?_
      rintro (h | ⟨_, h, _⟩)
      · omega
      · exact h hs
    · refine (hg.and (hfull hs)).imp fun {a b} hab => ?_
      rintro (h | ⟨h1, _, h2⟩)
      · omega
      · exact h2 (hab.2 h1.symm)
  · have hstep : mergeStep s = .ok := funext fun l => if_neg (fun h => h hm)
    rw [sortResult_eq, full_or_merge s hm, hstep] at e
    intro x hx
    have hgrp : ∀ r, decide (OnLevel (Precedes s) x r) = true → group s r = group s x := fun r hr => level_group (of_decide_eq_true hr)
    by_cases hf : s &&& SORT_FULL ≠ 0
    · rw [if_pos hf] at e
      obtain ⟨l1, e1, hs1⟩ := Parser.stableSort_ok (Parser.orders_lt hl)
      have hd1 : ∀ r ∈ l1, Defined r := fun r hr => hl r (hs1.perm.mem_iff.1 hr)
      obtain ⟨l2, e2, _, _, hst⟩ := familyStep_ok s hd1
      rw [e1] at e
      simp only [Res.bind_ok] at e
      obtain rfl : l2 = l' := Res.ok.inj (e2.symm.trans e)
      rw [filter_group s _ _ hgrp hst]
      refine hs1.filter_eq _ fun a ha b hb h1 h2 => ?_
      rw [fullOrder_iff (hl a ha) (hl b hb)]
      have h1 := level_order hf (of_decide_eq_true h1)
      have h2 := level_order hf (of_decide_eq_true h2)
      unfold FullOrder at h1 h2 ⊢
      omega
    · rw [if_neg hf] at e
      obtain ⟨l2, e2, _, _, hst⟩ := familyStep_ok s hl
      obtain rfl : l2 = l' := Res.ok.inj (e2.symm.trans e)
      exact filter_group s _ _ hgrp hst

/-- C134: the list returned, without `SORT_MERGE`, is the only stable order of the list which the same parser without sort order
returns. -/
theorem C134_exact (env : ParseEnv) (inp : Str) (p : Parser) (hm : p.config.sort &&& SORT_MERGE = 0) (l : List Range)
    (hl : (Parser.parse env inp (unsortedOf p)).2 = .ok l) (l' : List Range) :
    (Parser.parse env inp p).2 = .ok l' ↔ StableOrder (Precedes p.config.sort) l l' := by
  obtain ⟨_, _, _, _, h5⟩ := parse_sort env inp p
  obtain ⟨hd, he⟩ := h5 l hl
  obtain ⟨l₂, e, hs⟩ := sortResult_stable p.config.sort hm hd
  have he : (Parser.parse env inp p).2 = .ok l₂ := he.trans e
  rw [he]
  constructor
  · intro h
    cases h
    exact hs
  · intro h
    rw [C134_unique _ l l₂ l' (fun r _ => precedes_irrefl _ r) hs h]

theorem and_disjoint {s a b : BitVec 64} (h : a &&& b = 0) : s &&& a &&& b = 0 := by
  rw [BitVec.and_assoc, h]
  exact BitVec.and_zero

theorem and_within {s a b : BitVec 64} (h : a &&& b = b) : s &&& a &&& b = s &&& b := by
  rw [BitVec.and_assoc, h]

/-- Merging, then the family. -/
theorem sortResult_split (s : BitVec 64) (hm : s &&& SORT_MERGE ≠ 0) (l : List Range) :
    Parser.sortResult s l = Parser.sortResult (withoutFamily s) l >>= Parser.sortResult (onlyFamily s) := by
  have h1 : withoutFamily s &&& SORT_MERGE = s &&& SORT_MERGE := and_within (by decide)
  have h2 : withoutFamily s &&& (SORT_FULL ||| SORT_MERGE) = s &&& (SORT_FULL ||| SORT_MERGE) := and_within (by decide)
  have h3 : withoutFamily s &&& SORT_IPV4_FIRST = 0 := and_disjoint (by decide)
  have h4 : withoutFamily s &&& SORT_IPV6_FIRST = 0 := and_disjoint (by decide)
  have g1 : onlyFamily s &&& SORT_MERGE = 0 := and_disjoint (by decide)
  have g2 : onlyFamily s &&& (SORT_FULL ||| SORT_MERGE) = 0 := and_disjoint (by decide)
  have g3 : onlyFamily s &&& SORT_IPV4_FIRST = s &&& SORT_IPV4_FIRST := and_within (by decide)
  have g4 : onlyFamily s &&& SORT_IPV6_FIRST = s &&& SORT_IPV6_FIRST := and_within (by decide)
  have e1 : familyStep (withoutFamily s) = .ok := funext fun l => by
    unfold familyStep
    rw [if_neg (fun h => h h3), if_neg (fun h => h h4)]
  have e2 : familyStep (onlyFamily s) = familyStep s := funext fun l => by
    unfold familyStep
    rw [g3, g4]
  have e3 : mergeStep (withoutFamily s) = mergeStep s := funext fun l => by
    unfold mergeStep
    rw [h1]
  have e4 : Parser.sortResult (onlyFamily s) = familyStep s := funext fun l => by
    rw [sortResult_eq, if_neg (fun h => h g2), e2]
    unfold mergeStep
    simp only [Res.bind_ok]
    rw [if_neg (fun h => h g1)]
    rfl
  rw [e4, sortResult_eq, sortResult_eq, h2, e1, e3]
  cases (if s &&& (SORT_FULL ||| SORT_MERGE) ≠ 0 then Parser.stableSort Range.lt l else .ok l) with
  | throw e => rfl
  | ub w => rfl
  | ok l1 =>
    simp only [Res.bind_ok]
    cases mergeStep s l1 <;> rfl

/-- C134: with `SORT_MERGE` a family is put first after the merge: the list is the only stable order by group of the one which is returned
without these flags. -/
theorem C134_merged (env : ParseEnv) (inp : Str) (p : Parser) (hm : p.config.sort &&& SORT_MERGE ≠ 0) (l' : List Range) :
    (Parser.parse env inp p).2 = .ok l'
      ↔ ∃ m, (Parser.parse env inp (withSort p (withoutFamily p.config.sort))).2 = .ok m
          ∧ StableOrder (Precedes (onlyFamily p.config.sort)) m l' := by
  generalize hs : p.config.sort = s at hm ⊢
  have hq : withSort p (withoutFamily s) = { p with config := { p.config with sort := withoutFamily s } } := by
    unfold withSort Parser.setSortOrder
    rw [if_neg]
    · rfl
    · rw [show withoutFamily s &&& (SORT_IPV6_FIRST ||| SORT_IPV4_FIRST) = 0 from and_disjoint (by decide)]
      decide
  have hu : unsortedOf (withSort p (withoutFamily s)) = unsortedOf p := by
    have e1 := unsortedOf_config p
    have e2 := unsortedOf_config (withSort p (withoutFamily s))
    have e3 := unsortedOf_error p
    have e4 := unsortedOf_error (withSort p (withoutFamily s))
    generalize unsortedOf p = a at e1 e3
    generalize unsortedOf (withSort p (withoutFamily s)) = b at e2 e4
    rw [hq] at e2 e4
    obtain ⟨ca, ea, na⟩ := a
    obtain ⟨cb, eb, nb⟩ := b
    simp only at e1 e2 e3 e4
    rw [e1, e2, e3.1, e3.2, e4.1, e4.2, hs]
    rw [show withoutFamily s &&& SORT_NO_EMPTY = s &&& SORT_NO_EMPTY from and_within (by decide)]
  obtain ⟨_, _, ht, hw, h5⟩ := parse_sort env inp p
  obtain ⟨_, _, ht', hw', h5'⟩ := parse_sort env inp (withSort p (withoutFamily s))
  rw [hu] at ht' hw' h5'
  cases hb : (Parser.parse env inp (unsortedOf p)).2 with
  | throw e =>
    rw [ht e hb, ht' e hb]
    exact ⟨fun h => (nomatch h), fun ⟨_, h, _⟩ => (nomatch h)⟩
  | ub w =>
    rw [hw w hb, hw' w hb]
    exact ⟨fun h => (nomatch h), fun ⟨_, h, _⟩ => (nomatch h)⟩
  | ok l =>
    obtain ⟨hd, e⟩ := h5 l hb
    obtain ⟨_, e'⟩ := h5' l hb
    rw [e, e', hs, sortResult_split s hm, show (withSort p (withoutFamily s)).config.sort = withoutFamily s by rw [hq]]
    have hm' : withoutFamily s &&& SORT_MERGE ≠ 0 := by
      rw [show withoutFamily s &&& SORT_MERGE = s &&& SORT_MERGE from and_within (by decide)]
      exact hm
    rcases sortResult_merges (withoutFamily s) hm' hd with h | ⟨m, h, hdm, _⟩
    · rw [h]
      exact ⟨fun h => (nomatch h), fun ⟨_, h, _⟩ => (nomatch h)⟩
    · rw [h]
      obtain ⟨l₂, e₂, hs₂⟩ := sortResult_stable (onlyFamily s) (and_disjoint (by decide)) hdm
      simp only [Res.bind_ok]
      rw [e₂]
      constructor
      · intro h
        cases h
        exact ⟨m, rfl, hs₂⟩
      · rintro ⟨m', hm', h⟩
        cases hm'
        rw [C134_unique _ m l₂ l' (fun r _ => precedes_irrefl _ r) hs₂ h]

open scoped Classical in
/-- C134: the model of `std::stable_sort()` is the one of the standard, whatever the algorithm. -/
theorem C134_stable_sort (lt : Range → Range → Res Bool) (l l' : List Range) (h : Parser.isStrictWeakOrder lt l = true) :
    Parser.stableSort lt l = .ok l' ↔ StableOrder (fun a b => lt a b = .ok true) l l' := by
  have ho : Parser.Orders lt l := by
    simp only [Parser.isStrictWeakOrder, Bool.and_eq_true, List.all_eq_true, decide_eq_true_eq, Bool.or_eq_true,
      Bool.not_eq_true'] at h
    obtain ⟨⟨⟨h1, h2⟩, h3⟩, h4⟩ := h
    refine ⟨fun a ha b hb => ?_, h2, fun a ha b hb c hc g1 g2 => ?_, fun a ha b hb c hc g1 g2 g3 g4 => ?_⟩
    · have := h1 a ha b hb
      cases e : lt a b with
      | ok x => exact ⟨x, rfl⟩
      | throw _ => rw [e] at this; cases this
      | ub _ => rw [e] at this; cases this
    · exact (h3 a ha b hb c hc).resolve_left (by simp [g1, g2])
    · exact (h4 a ha b hb c hc).resolve_left (by simp [g1, g2, g3, g4])
  obtain ⟨l₂, e, hs⟩ := Parser.stableSort_ok ho
  have hf : ∀ a ∈ l, ∀ b ∈ l, lt a b ≠ .ok true → lt a b = .ok false := by
    intro a ha b hb hn
    obtain ⟨v, hv⟩ := ho.answers a ha b hb
    cases v with
    | true => exact absurd hv hn
    | false => exact hv
  have hs' : StableOrder (fun a b => lt a b = .ok true) l l₂ := by
    refine ⟨hs.perm, hs.order.imp fun {a b} h h' => ?_, fun x hx => hs.filter_eq _ fun a ha b hb h1 h2 => ?_⟩
    · rw [h] at h'; cases h'
    · obtain ⟨h1, h1'⟩ := of_decide_eq_true h1
      obtain ⟨h2, h2'⟩ := of_decide_eq_true h2
      exact (ho.unordered b hb x hx a ha (hf _ hb _ hx h2') (hf _ hx _ hb h2) (hf _ hx _ ha h1) (hf _ ha _ hx h1')).1
  rw [e]
  constructor
  · intro h
    cases h
    exact hs'
  · intro h
    rw [C134_unique _ l l₂ l' (fun r hr => by rw [ho.irrefl r hr]; simp) hs' h]

/-! ### Examples -/

theorem bounds_ok {r : Res (List Range)} {b : List (Nat × Nat)} (h : resultBounds r = some b) :
    ∃ l, r = .ok l ∧ l.map (fun r => (first r, last r)) = b := by
  cases r with
  | ok l => exact ⟨l, rfl, Option.some.inj h⟩
  | throw e => cases h
  | ub w => cases h

-- C134_exact: the empty ranges come last and stay in the order of the text, ::9-::3 before ::7-::2.
example : ∃ l l', l.map (fun r => (first r, last r)) = [(281470698652420, 281470698652420), (9, 3), (5, 5), (7, 2)]
    ∧ l'.map (fun r => (first r, last r)) = [(5, 5), (281470698652420, 281470698652420), (9, 3), (7, 2)]
    ∧ StableOrder (Precedes (SORT_FULL ||| SORT_IPV6_FIRST)) l l' := by
  obtain ⟨l, h1, h2⟩ := bounds_ok (r := (Parser.parse sampleEnv "1.2.3.4,::9-::3,::5,::7-::2".toList
    (unsortedOf (sortParser (SORT_FULL ||| SORT_IPV6_FIRST)))).2)
    (b := [(281470698652420, 281470698652420), (9, 3), (5, 5), (7, 2)]) (by decide +kernel)
  obtain ⟨l', h3, h4⟩ := bounds_ok (r := (Parser.parse sampleEnv "1.2.3.4,::9-::3,::5,::7-::2".toList
    (sortParser (SORT_FULL ||| SORT_IPV6_FIRST))).2)
    (b := [(5, 5), (281470698652420, 281470698652420), (9, 3), (7, 2)]) (by decide +kernel)
  exact ⟨l, l', h2, h4, (C134_exact sampleEnv _ (sortParser (SORT_FULL ||| SORT_IPV6_FIRST)) (by decide +kernel) l h1 l').1 h3⟩

-- C134_merged: ::1-::4 and ::5 are merged, then 1.2.3.4 is put first.
example : ∃ m l', m.map (fun r => (first r, last r)) = [(1, 5), (281470698652420, 281470698652420)]
    ∧ l'.map (fun r => (first r, last r)) = [(281470698652420, 281470698652420), (1, 5)]
    ∧ StableOrder (Precedes SORT_IPV4_FIRST) m l' := by
  have hs : (sortParser (SORT_MERGE ||| SORT_IPV4_FIRST)).config.sort = SORT_MERGE ||| SORT_IPV4_FIRST := by decide +kernel
  obtain ⟨l', h3, h4⟩ := bounds_ok (r := (Parser.parse sampleEnv "::5,1.2.3.4,::1-::4".toList (sortParser (SORT_MERGE ||| SORT_IPV4_FIRST))).2)
    (b := [(281470698652420, 281470698652420), (1, 5)]) (by decide +kernel)
  obtain ⟨m, h1, h2⟩ := (C134_merged sampleEnv _ (sortParser (SORT_MERGE ||| SORT_IPV4_FIRST)) (by decide +kernel) l').1 h3
  refine ⟨m, l', ?_, h4, ?_⟩
  · have : resultBounds (Parser.parse sampleEnv "::5,1.2.3.4,::1-::4".toList
        (withSort (sortParser (SORT_MERGE ||| SORT_IPV4_FIRST)) (withoutFamily (sortParser (SORT_MERGE ||| SORT_IPV4_FIRST)).config.sort))).2
        = some [(1, 5), (281470698652420, 281470698652420)] := by decide +kernel
    rw [h1] at this
    exact Option.some.inj this
  · rw [hs] at h2
    exact h2

-- C134_stable_sort: the comparator of `SORT_FULL` on any list of ranges with bounds.
example (l : List Range) (hl : ∀ r ∈ l, Defined r) : ∃ l', StableOrder (fun a b => Range.lt a b = .ok true) l l' := by
  have h := Parser.swo_of_orders (Parser.orders_lt hl)
  exact ⟨_, (C134_stable_sort Range.lt l _ h).1 (by rw [Parser.stableSort, if_pos h])⟩

end Verif
