import Verif.Props.EntryOrder

/-!
# Property C115: empty ranges in a list which is merged
-/

namespace Verif

open Spec

/-- The first empty range of a list. -/
def firstEmpty (l : List Range) : Option Range := l.find? fun r => decide (last r < first r)

/-- The ranges of a list which are not empty. -/
def nonEmpty (l : List Range) : List Range := l.filter fun r => decide (first r ≤ last r)

/-- An empty range one bound of which is next to the address `v`. -/
def Beside (v : Nat) (e : Range) : Prop := last e + 1 = v ∨ first e = v + 1

/-- `r` starts last, and the empty range is next to it. -/
def Hidden (L : List Range) (e : Option Range) (r : Range) : Prop :=
  (∀ s ∈ L, first s ≤ first r) ∧ ∃ x, e = some x ∧ Beside (first r) x

/-- An address which is within the bounds of one of the ranges, or which matches the mask of one which stands alone and which is not hidden by
the empty range. -/
def KeptAmid (L : List Range) (e : Option Range) (a : Addr) : Prop :=
  ∃ r ∈ L, between (ip a.getIpv6.addr) (first r) (last r) ∨ (StandsAlone L r ∧ r.matchAddr a = .ok true ∧ ¬ Hidden L e r)

theorem keptAmid_none (L : List Range) (a : Addr) : KeptAmid L none a ↔ KeptBy L a := by
  simp [KeptAmid, KeptBy, Hidden]

theorem keptAmid_perm {P Q : List Range} (h : P.Perm Q) (e : Option Range) (a : Addr) : KeptAmid P e a ↔ KeptAmid Q e a := by
  simp only [KeptAmid, StandsAlone, Hidden, h.mem_iff]

theorem keptAmid_append {P Q : List Range} {m : Nat} (hP : ∀ r ∈ P, first r ≤ last r ∧ last r < m)
    (hQ : ∀ r ∈ Q, first r ≤ last r ∧ m < first r) (h0 : ∃ q, q ∈ Q) (e : Option Range) (a : Addr) :
    KeptAmid (P ++ Q) e a ↔ KeptBy P a ∨ KeptAmid Q e a := by
  have s1 : ∀ r ∈ P, StandsAlone (P ++ Q) r ↔ StandsAlone P r := by
    intro r hr
    have h1 := hP r hr
    refine and_congr_right fun _ => ⟨fun h s hs => h s (List.mem_append.2 (.inl hs)), fun h s hs hm => ?_⟩
    rcases List.mem_append.1 hs with hs | hs
    · exact h s hs hm
    · have := hQ s hs
      unfold meetOrTouch at hm
      omega
  have s2 : ∀ r ∈ Q, StandsAlone (P ++ Q) r ↔ StandsAlone Q r := by
    intro r hr
    have h1 := hQ r hr
    refine and_congr_right fun _ => ⟨fun h s hs => h s (List.mem_append.2 (.inr hs)), fun h s hs hm => ?_⟩
    rcases List.mem_append.1 hs with hs | hs
    · have := hP s hs
      unfold meetOrTouch at hm
      omega
    · exact h s hs hm
  have t1 : ∀ r ∈ P, ¬ Hidden (P ++ Q) e r := by
    intro r hr ⟨h, _⟩
    obtain ⟨q, hq⟩ := h0
    have := h q (List.mem_append.2 (.inr hq))
    have := hP r hr
    have := hQ q hq
    omega
  have t2 : ∀ r ∈ Q, Hidden (P ++ Q) e r ↔ Hidden Q e r := by
    intro r hr
    refine and_congr_left fun _ => ⟨fun h s hs => h s (List.mem_append.2 (.inr hs)), fun h s hs => ?_⟩
    rcases List.mem_append.1 hs with hs | hs
    · have := hP s hs
      have := hQ r hr
      omega
    · exact h s hs
  constructor
  · rintro ⟨r, hr, h⟩
    rcases List.mem_append.1 hr with hr | hr
    · rw [s1 r hr] at h
      exact .inl ⟨r, hr, h.imp id fun h => ⟨h.1, h.2.1⟩⟩
    · rw [s2 r hr, t2 r hr] at h
      exact .inr ⟨r, hr, h⟩
  · rintro (⟨r, hr, h⟩ | ⟨r, hr, h⟩)
    · rw [← s1 r hr] at h
      exact ⟨r, List.mem_append.2 (.inl hr), h.imp id fun h => ⟨h.1, h.2, t1 r hr⟩⟩
    · rw [← s2 r hr, ← t2 r hr] at h
      exact ⟨r, List.mem_append.2 (.inr hr), h⟩

/-- An address which stands alone among the ranges gathered is all of them. -/
theorem Collects.alone {cur : Range} {G : List Range} (h : Collects cur G) {r : Range} (hr : r ∈ G) (ha : StandsAlone G r) :
    first cur = first r ∧ last cur = first r := by
  obtain ⟨i1, i2, i3⟩ := h.gathers.inside r hr
  have hl := single_last (h.sounds r hr) ha.1
  constructor
  · by_cases hlt : first cur < first r
    · obtain ⟨s, hs, hb⟩ := (h.gathers.filled (first r - 1)).2 (by unfold between; omega)
      unfold between at hb
      have := ha.2 s hs (by unfold meetOrTouch; omega)
      omega
    · omega
  · by_cases hlt : first r < last cur
    · obtain ⟨s, hs, hb⟩ := (h.gathers.filled (first r + 1)).2 (by unfold between; omega)
      unfold between at hb
      have h2 := ha.2 s hs (by unfold meetOrTouch; have := h.gathers.inside s hs; omega)
      have := single_last (h.sounds s hs) h2.1
      omega
    · omega

/-- An empty range matches nothing. -/
theorem empty_nothing {r : Range} (hd : Defined r) (he : last r < first r) (a : Addr) : ¬ r.matchAddr a = .ok true := by
  rw [Range.matchAddr, if_pos ((isEmpty_first_last hd).2 he)]
  exact fun h => nomatch h

theorem empty_complete {r : Range} (hd : Defined r) (he : last r < first r) : Complete r :=
  ((isEmpty_iff r).1 ((isEmpty_first_last hd).2 he)).1

/-- Empty ranges are never merged with each other. -/
theorem mergeLoop_all_empty (cur : Range) (E : List Range) (hd : Defined cur) (hc : last cur < first cur)
    (hE : ∀ r ∈ E, Defined r ∧ last r < first r) (l' : List Range) (h : Parser.mergeLoop cur E = .ok l') : l' = cur :: E := by
  induction E generalizing cur l' with
  | nil => cases h; rfl
  | cons next E ih =>
    obtain ⟨n1, n2⟩ := hE next List.mem_cons_self
    rw [Parser.mergeLoop] at h
    obtain ⟨c1, c2, c3⟩ := union_cases cur next hd
    have key : ∀ u, cur.unionIfPossible next = .ok u → (u.isDefined && !u.isEmpty) = false := by
      intro u hu
      by_cases hm : (first cur ≤ last next ∧ first next ≤ last cur) ∨ last next + 1 = first cur ∨ first next = last cur + 1
      · by_cases ha : UnionMasksAccepted cur next
        · obtain ⟨u', e, hd', f, la, _⟩ := c3 hm ha
          rw [hu] at e
          cases e
          rw [(isEmpty_first_last hd').2 (by rw [f, la]; omega)]
          simp
        · rw [c2 hm ha] at hu
          cases hu
      · rw [c1 hm] at hu
        cases hu
        decide
    rcases hu : cur.unionIfPossible next with u | e | w
    · rw [hu] at h
      simp only [Res.bind_ok] at h
      rw [key u hu] at h
      rw [if_neg Bool.false_ne_true] at h
      rcases h1 : Parser.mergeLoop next E with t | e | w
      · rw [h1] at h
        cases h
        rw [ih next n1 n2 (fun r hr => hE r (List.mem_cons_of_mem _ hr)) t h1]
      · rw [h1] at h; cases h
      · rw [h1] at h; cases h
    · rw [hu] at h; cases h
    · rw [hu] at h; cases h

/-- An empty range which is next to what precedes it. -/
def Touched (cur e : Range) : Prop :=
  (first cur ≤ last e ∧ first e ≤ last cur) ∨ last e + 1 = first cur ∨ first e = last cur + 1

/-- What follows a range which is complete changes nothing. -/
theorem mergeLoop_complete (cur : Range) (E : List Range) (hd : Complete cur) (hc : first cur ≤ last cur)
    (hE : ∀ r ∈ E, Defined r ∧ last r < first r) (l' : List Range) (h : Parser.mergeLoop cur E = .ok l') (a : Addr) :
    (∃ r ∈ l', r.matchAddr a = .ok true) ↔ between (ip a.getIpv6.addr) (first cur) (last cur) := by
  induction E generalizing cur l' with
  | nil =>
    cases h
    rw [← match_complete hd]
    simp
  | cons next E ih =>
    obtain ⟨n1, n2⟩ := hE next List.mem_cons_self
    have hE' : ∀ r ∈ E, Defined r ∧ last r < first r := fun r hr => hE r (List.mem_cons_of_mem _ hr)
    rw [Parser.mergeLoop] at h
    obtain ⟨c1, c2, c3⟩ := union_cases cur next (.inl hd.1)
    rcases hu : cur.unionIfPossible next with u | e | w
    · rw [hu] at h
      simp only [Res.bind_ok] at h
      by_cases hm : (first cur ≤ last next ∧ first next ≤ last cur) ∨ last next + 1 = first cur ∨ first next = last cur + 1
      · by_cases ha : UnionMasksAccepted cur next
        · obtain ⟨u', e, hd', f, la, _, hcomp⟩ := c3 hm ha
          rw [hu] at e
          cases e
          have f' : first u = first cur := by rw [f]; omega
          have la' : last u = last cur := by rw [la]; omega
          have hne : ¬ u.isEmpty = true := fun h => by
            have := (isEmpty_first_last hd').1 h
            omega
          rw [if_pos (by rw [(defined_isDefined u).2 hd']; simp [hne])] at h
          rw [ih u (hcomp (.inl hd)).1 (by omega) hE' l' h, f', la']
        · rw [c2 hm ha] at hu
          cases hu
      · rw [c1 hm] at hu
        cases hu
        rw [if_neg (by decide)] at h
        rcases h1 : Parser.mergeLoop next E with t | e | w
        · rw [h1] at h
          cases h
          rw [mergeLoop_all_empty next E n1 n2 hE' t h1, ← match_complete hd]
          constructor
          · rintro ⟨r, hr, hx⟩
            rcases List.mem_cons.1 hr with rfl | hr
            · exact hx
            · rcases List.mem_cons.1 hr with rfl | hr
              · exact absurd hx (empty_nothing n1 n2 a)
              · exact absurd hx (empty_nothing (hE' r hr).1 (hE' r hr).2 a)
          · exact fun hx => ⟨cur, List.mem_cons_self, hx⟩
        · rw [h1] at h; cases h
        · rw [h1] at h; cases h
    · rw [hu] at h; cases h
    · rw [hu] at h; cases h

open Classical in
/-- The empty ranges after the last range. -/
theorem mergeLoop_after (cur : Range) (E : List Range) (hd : Defined cur) (hc : first cur ≤ last cur)
    (hE : ∀ r ∈ E, Defined r ∧ last r < first r) (l' : List Range) (h : Parser.mergeLoop cur E = .ok l') (a : Addr) :
    (∃ r ∈ l', r.matchAddr a = .ok true) ↔
      if (∃ e, E.head? = some e ∧ Touched cur e) then between (ip a.getIpv6.addr) (first cur) (last cur) else cur.matchAddr a = .ok true := by
  cases E with
  | nil =>
    cases h
    rw [if_neg (by simp)]
    simp
  | cons next E =>
    obtain ⟨n1, n2⟩ := hE next List.mem_cons_self
    have hE' : ∀ r ∈ E, Defined r ∧ last r < first r := fun r hr => hE r (List.mem_cons_of_mem _ hr)
    rw [Parser.mergeLoop] at h
    obtain ⟨c1, c2, c3⟩ := union_cases cur next hd
    rcases hu : cur.unionIfPossible next with u | e | w
    · rw [hu] at h
      simp only [Res.bind_ok] at h
      by_cases hm : Touched cur next
      · rw [if_pos ⟨next, rfl, hm⟩]
        unfold Touched at hm
        by_cases ha : UnionMasksAccepted cur next
        · obtain ⟨u', e, hd', f, la, _, hcomp⟩ := c3 hm ha
          rw [hu] at e
          cases e
          have f' : first u = first cur := by rw [f]; omega
          have la' : last u = last cur := by rw [la]; omega
          have hne : ¬ u.isEmpty = true := fun h => by
            have := (isEmpty_first_last hd').1 h
            omega
          rw [if_pos (by rw [(defined_isDefined u).2 hd']; simp [hne])] at h
          rw [mergeLoop_complete u E (hcomp (.inr (empty_complete n1 n2))).1 (by omega) hE' l' h, f', la']
        · rw [c2 hm ha] at hu
          cases hu
      · rw [if_neg (by rintro ⟨e, h1, h2⟩; cases h1; exact hm h2)]
        rw [c1 hm] at hu
        cases hu
        rw [if_neg (by decide)] at h
        rcases h1 : Parser.mergeLoop next E with t | e | w
        · rw [h1] at h
          cases h
          rw [mergeLoop_all_empty next E n1 n2 hE' t h1]
          constructor
          · rintro ⟨r, hr, hx⟩
            rcases List.mem_cons.1 hr with rfl | hr
            · exact hx
            · rcases List.mem_cons.1 hr with rfl | hr
              · exact absurd hx (empty_nothing n1 n2 a)
              · exact absurd hx (empty_nothing (hE' r hr).1 (hE' r hr).2 a)
          · exact fun hx => ⟨cur, List.mem_cons_self, hx⟩
        · rw [h1] at h; cases h
        · rw [h1] at h; cases h
    · rw [hu] at h; cases h
    · rw [hu] at h; cases h

open Classical in
theorem Collects.amid {cur : Range} {G : List Range} (h : Collects cur G) (e : Option Range) (a : Addr)
    (he : ∀ x, e = some x → last x < first x) :
    KeptAmid G e a ↔ if (∃ x, e = some x ∧ Touched cur x) then between (ip a.getIpv6.addr) (first cur) (last cur) else cur.matchAddr a = .ok true := by
  have ho := h.gathers.order
  by_cases ht : ∃ x, e = some x ∧ Touched cur x
  · rw [if_pos ht]
    constructor
    · rintro ⟨r, hr, hb | ⟨ha, hx, hh⟩⟩
      · exact (h.gathers.filled _).1 ⟨r, hr, hb⟩
      · exfalso
        obtain ⟨a1, a2⟩ := h.alone hr ha
        refine hh ⟨fun s hs => ?_, ?_⟩
        · have := h.gathers.inside s hs
          omega
        · obtain ⟨x, hx, hto⟩ := ht
          have := he x hx
          refine ⟨x, hx, ?_⟩
          unfold Touched at hto
          unfold Beside
          omega
    · intro hb
      obtain ⟨r, hr, hb⟩ := (h.gathers.filled _).2 hb
      exact ⟨r, hr, .inl hb⟩
  · rw [if_neg ht, h.match_iff]
    constructor
    · rintro ⟨r, hr, hb | ⟨ha, hx, _⟩⟩
      · exact ⟨r, hr, .inl hb⟩
      · exact ⟨r, hr, .inr ⟨ha, hx⟩⟩
    · rintro ⟨r, hr, hb | ⟨ha, hx⟩⟩
      · exact ⟨r, hr, .inl hb⟩
      · refine ⟨r, hr, .inr ⟨ha, hx, fun hh => ht ?_⟩⟩
        obtain ⟨a1, a2⟩ := h.alone hr ha
        obtain ⟨_, x, hx, hbe⟩ := hh
        refine ⟨x, hx, ?_⟩
        unfold Beside at hbe
        unfold Touched
        omega

theorem mergeLoop_amid (cur : Range) (G l E : List Range) (hc : Collects cur G)
    (hl : ∀ r ∈ l, Sound r ∧ first r ≤ last r) (hf : ∀ r ∈ l, first cur ≤ first r)
    (hp : l.Pairwise fun r s => first r ≤ first s) (hE : ∀ r ∈ E, Defined r ∧ last r < first r)
    (l' : List Range) (hl' : Parser.mergeLoop cur (l ++ E) = .ok l') (a : Addr) :
    (∃ r ∈ l', r.matchAddr a = .ok true) ↔ KeptAmid (G ++ l) E.head? a := by
  induction l generalizing cur G l' with
  | nil =>
    rw [List.append_nil, mergeLoop_after cur E hc.gathers.defined hc.gathers.order hE l' hl', hc.amid]
    intro x hx
    exact (hE x (List.mem_of_mem_head? hx)).2
  | cons next l ih =>
    obtain ⟨n1, n2⟩ := hl next List.mem_cons_self
    have hlt : ∀ r ∈ l, Sound r ∧ first r ≤ last r := fun r hr => hl r (List.mem_cons_of_mem _ hr)
    rw [List.pairwise_cons] at hp
    have hq := hf next List.mem_cons_self
    have hord := hc.gathers.order
    rw [List.cons_append, Parser.mergeLoop] at hl'
    rcases Nat.lt_or_ge (last cur + 1) (first next) with hgap | hmeet
    · rw [(union_cases cur next hc.gathers.defined).1 (by omega)] at hl'
      simp only [Res.bind_ok] at hl'
      rw [if_neg (by decide)] at hl'
      rcases h1 : Parser.mergeLoop next (l ++ E) with t | e | w
      · rw [h1] at hl'
        cases hl'
        rw [keptAmid_append (m := last cur + 1)
          (fun r hr => by have := hc.gathers.inside r hr; omega)
          (fun r hr => by
            rcases List.mem_cons.1 hr with rfl | hr
            · exact ⟨n2, hgap⟩
            · have := hp.1 r hr
              exact ⟨(hlt r hr).2, by omega⟩) ⟨next, List.mem_cons_self⟩]
        have := ih next [next] (collects_one n1 n2) hlt hp.1 hp.2 t h1
        rw [List.singleton_append] at this
        rw [← this, ← hc.match_iff]
        simp
      · rw [h1] at hl'; cases hl'
      · rw [h1] at hl'; cases hl'
    · rcases hu : cur.unionIfPossible next with u | e | w
      · obtain ⟨hcu, hfu⟩ := hc.step n1 n2 hq hmeet hu
        rw [hu] at hl'
        simp only [Res.bind_ok] at hl'
        have hdef : (u.isDefined && !u.isEmpty) = true := by
          rw [(defined_isDefined u).2 hcu.gathers.defined]
          have : ¬ u.isEmpty = true := fun h => by
            have := (isEmpty_first_last hcu.gathers.defined).1 h
            have := hcu.gathers.order
            omega
          simp [this]
        rw [if_pos hdef] at hl'
        have := ih u (G ++ [next]) hcu hlt (fun x hx => by rw [hfu]; exact hf x (List.mem_cons_of_mem _ hx)) hp.2 l' hl'
        rw [List.append_assoc, List.singleton_append] at this
        exact this
      · rw [hu] at hl'; cases hl'
      · rw [hu] at hl'; cases hl'

/-- A list whose empty ranges come last. -/
theorem split_empty {l : List Range} (h : l.Pairwise fun r s => last r < first r → last s < first s) :
    l = nonEmpty l ++ l.filter fun r => decide (last r < first r) := by
  induction l with
  | nil => rfl
  | cons r l ih =>
    rw [List.pairwise_cons] at h
    by_cases hr : last r < first r
    · have h1 : ∀ s ∈ r :: l, last s < first s := by
        intro s hs
        rcases List.mem_cons.1 hs with rfl | hs
        · exact hr
        · exact h.1 s hs hr
      rw [nonEmpty, List.filter_eq_nil_iff.2 (fun s hs => by have := h1 s hs; simp; omega),
        List.filter_eq_self.2 (fun s hs => by simpa using h1 s hs)]
      rfl
    · have e1 : nonEmpty (r :: l) = r :: nonEmpty l := by
        unfold nonEmpty
        exact List.filter_cons_of_pos (by simp; omega)
      rw [e1, List.filter_cons_of_neg (by simpa using hr), List.cons_append, ← ih h.2]

/-- The empty ranges stay in the order in which they were read. -/
theorem empties_stable {l l1 : List Range} (hd : ∀ r ∈ l, Defined r) (hs : Parser.Sorted (fun r s => r.lt s) l l1) :
    (l1.filter fun r => decide (last r < first r)) = l.filter fun r => decide (last r < first r) := by
  have h1 : (l.filter fun r => decide (last r < first r)).Sublist l1 := by
    refine hs.stable _ List.filter_sublist (List.pairwise_iff_forall_sublist.2 ?_)
    intro a b hab
    have ha := hab.subset List.mem_cons_self
    have hb := hab.subset (List.mem_cons_of_mem _ List.mem_cons_self)
    rw [List.mem_filter] at ha hb
    obtain ⟨v, h1, h2⟩ := C32_less_iff b a (hd b hb.1) (hd a ha.1)
    show b.lt a = .ok false
    rw [h1]
    have : ¬ v = true := fun h => by
      have := (h2.1 h).1
      have := hb.2
      simp at this
      omega
    simpa using this
  have h2 := h1.filter fun r => decide (last r < first r)
  rw [List.filter_filter] at h2
  simp only [Bool.and_self] at h2
  exact (h2.eq_of_length (hs.perm.filter _).length_eq.symm).symm

theorem firstEmpty_eq (l : List Range) : firstEmpty l = (l.filter fun r => decide (last r < first r)).head? := by
  rw [firstEmpty, List.head?_filter]

theorem sortResult_amid (s : BitVec 64) (hm : s &&& SORT_MERGE ≠ 0) {l l' : List Range}
    (hl : ∀ r ∈ l, Sound r) (h : Parser.sortResult s l = .ok l') (a : Addr) :
    (∃ r ∈ l', r.matchAddr a = .ok true) ↔ KeptAmid (nonEmpty l) (firstEmpty l) a := by
  have hstep : mergeStep s = Parser.mergeAll := funext fun l => if_pos hm
  have hd : ∀ r ∈ l, Defined r := fun r hr => (hl r hr).defined
  obtain ⟨l1, e1, hs1⟩ := Parser.stableSort_ok (Parser.orders_lt hd)
  have hl1 : ∀ r ∈ l1, Sound r := fun r hr => hl r (hs1.perm.mem_iff.1 hr)
  have hbefore : l1.Pairwise fun r s => Parser.StartsBefore r s :=
    hs1.order.imp_of_mem fun {a b} ha hb hab => Parser.startsBefore_of_lt (hl1 a ha).defined (hl1 b hb).defined hab
  have hsplit := split_empty (hbefore.imp fun h => h.1)
  rw [empties_stable hd hs1] at hsplit
  have hE : ∀ r ∈ l.filter (fun r => decide (last r < first r)), Defined r ∧ last r < first r := by
    intro r hr
    rw [List.mem_filter] at hr
    exact ⟨hd r hr.1, by simpa using hr.2⟩
  have hN : ∀ r ∈ nonEmpty l1, Sound r ∧ first r ≤ last r := by
    intro r hr
    rw [nonEmpty, List.mem_filter] at hr
    exact ⟨hl1 r hr.1, by simpa using hr.2⟩
  have hord : (nonEmpty l1).Pairwise fun r s => first r ≤ first s :=
    (hbefore.sublist List.filter_sublist).imp_of_mem fun {a b} ha hb hab => hab.2 (hN b hb).2
  rw [firstEmpty_eq, ← keptAmid_perm (P := nonEmpty l1) (Q := nonEmpty l) (hs1.perm.filter _)]
  rw [sortResult_eq, if_pos (merge_or_full s hm), hstep, e1] at h
  simp only [Res.bind_ok] at h
  rcases h1 : Parser.mergeAll l1 with l2 | e | w
  · rw [h1] at h
    simp only [Res.bind_ok] at h
    have hkey : (∃ r ∈ l2, r.matchAddr a = .ok true) ↔ KeptAmid (nonEmpty l1) (l.filter fun r => decide (last r < first r)).head? a := by
      rw [hsplit] at h1
      generalize l.filter (fun r => decide (last r < first r)) = E at h1 hE
      generalize nonEmpty l1 = N at h1 hN hord
      cases N with
      | nil =>
        have : l2 = E := by
          cases E with
          | nil => cases h1; rfl
          | cons e E =>
            exact mergeLoop_all_empty e E (hE e List.mem_cons_self).1 (hE e List.mem_cons_self).2
              (fun r hr => hE r (List.mem_cons_of_mem _ hr)) l2 h1
        rw [this]
        constructor
        · rintro ⟨r, hr, hx⟩
          exact absurd hx (empty_nothing (hE r hr).1 (hE r hr).2 a)
        · rintro ⟨r, hr, _⟩; cases hr
      | cons cur N =>
        rw [List.pairwise_cons] at hord
        obtain ⟨j1, j2⟩ := hN cur List.mem_cons_self
        exact mergeLoop_amid cur [cur] N E (collects_one j1 j2) (fun r hr => hN r (List.mem_cons_of_mem _ hr)) hord.1 hord.2 hE l2 h1 a
    have hd2 : ∀ r ∈ l2, Defined r := by
      cases l1 with
      | nil => cases h1; exact fun r hr => (nomatch hr)
      | cons cur l1 =>
        rcases Parser.mergeLoop_outcome cur l1 (hl1 cur List.mem_cons_self).defined
          (fun r hr => (hl1 r (List.mem_cons_of_mem _ hr)).defined) with h' | ⟨l2', h', h'', _⟩
        · exact absurd (h'.symm.trans h1) (fun h => nomatch h)
        · have := h'.symm.trans h1
          cases this
          exact h''
    obtain ⟨l3, e3, hp, _⟩ := familyStep_ok s hd2
    rw [e3] at h
    cases h
    rw [← hkey]
    simp only [hp.mem_iff]
  · rw [h1] at h; cases h
  · rw [h1] at h; cases h

/-! ## C115 -/

/-- C115: what a merged list matches when some of its ranges may be empty. -/
theorem C115_exact (env : ParseEnv) (inp : Str) (p : Parser) (hm : p.config.sort &&& SORT_MERGE ≠ 0) (l l' : List Range)
    (hl : (Parser.parse env inp (unsortedOf p)).2 = .ok l) (hf : ∀ r ∈ l, r.hasFrom = true ∨ r.lo.getMaskSize = 128)
    (hl' : (Parser.parse env inp p).2 = .ok l') (a : Addr) :
    ∃ b, addressMatchRanges l' a = .ok b ∧ (b = true ↔ KeptAmid (nonEmpty l) (firstEmpty l) a) := by
  obtain ⟨_, _, _, _, h5⟩ := parse_sort env inp p
  obtain ⟨hd, he⟩ := h5 l hl
  have hhi := (Parser.hiWhole_parseUnsorted (env := env) (c := (unsortedOf p).config) inp (unsortedOf p) rfl).2 l (by
    rw [← parse_unsortedOf, hl])
  obtain ⟨b, h1, h2⟩ := C35_any_range l' a
  refine ⟨b, h1, h2.trans ?_⟩
  exact sortResult_amid p.config.sort hm (fun r hr => ⟨hd r hr, hhi r hr, hf r hr⟩) (he.symm.trans hl') a

/-- C115: the order of the entries only counts through the empty range which is read first. -/
theorem C115_order (env : ParseEnv) (p : Parser) (inp inp' : Str) (hl : ListMode p) (hm : p.config.sort &&& SORT_MERGE ≠ 0)
    (he : (pieces p inp).Perm (pieces p inp')) (l l' : List Range) (h0 : (Parser.parse env inp (unsortedOf p)).2 = .ok l)
    (h0' : (Parser.parse env inp' (unsortedOf p)).2 = .ok l') (hf : ∀ r ∈ l, r.hasFrom = true ∨ r.lo.getMaskSize = 128)
    (hfirst : firstEmpty l = firstEmpty l') (m m' : List Range) (h : (Parser.parse env inp p).2 = .ok m)
    (h' : (Parser.parse env inp' p).2 = .ok m') (a : Addr) : addressMatchRanges m' a = addressMatchRanges m a := by
  obtain ⟨errs, errs', l2, h1, h2, h3, h4⟩ := unsorted_order env p inp inp' hl he l h0
  rw [h2] at h0'
  cases h0'
  obtain ⟨b, k1, k2⟩ := C115_exact env inp' p hm l' m' (by rw [h2]) (fun r hr => hf r (h4.mem_iff.2 hr)) h' a
  obtain ⟨b', k3, k4⟩ := C115_exact env inp p hm l m h0 hf h a
  rw [k1, k3]
  refine congrArg Res.ok (Bool.eq_iff_iff.2 (k2.trans (Iff.trans ?_ k4.symm)))
  rw [hfirst]
  exact keptAmid_perm (h4.symm.filter _) _ a

/-- C115: an empty range never makes the list match more. -/
theorem C115_never_more (env : ParseEnv) (inp : Str) (p : Parser) (hm : p.config.sort &&& SORT_MERGE ≠ 0) (l l' : List Range)
    (hl : (Parser.parse env inp (unsortedOf p)).2 = .ok l) (hf : ∀ r ∈ l, r.hasFrom = true ∨ r.lo.getMaskSize = 128)
    (hl' : (Parser.parse env inp p).2 = .ok l') (a : Addr) (h : addressMatchRanges l' a = .ok true) : KeptBy (nonEmpty l) a := by
  obtain ⟨b, h1, h2⟩ := C115_exact env inp p hm l l' hl hf hl' a
  rw [h] at h1
  cases h1
  obtain ⟨r, hr, hb | ⟨h3, h4, _⟩⟩ := h2.1 rfl
  · exact ⟨r, hr, .inl hb⟩
  · exact ⟨r, hr, .inr ⟨h3, h4⟩⟩

/-- C115: an entry which is an empty range has no effect on what a merged list matches. -/
def C115_claim : Prop :=
  ∀ (env : ParseEnv) (p : Parser) (inp e : Str) (l m m' : List Range), ListMode p → p.config.sort &&& SORT_MERGE ≠ 0 →
    (Parser.parse env e p).2 = .ok l → (∀ r ∈ l, r.isEmpty = true) → (Parser.parse env inp p).2 = .ok m →
    (Parser.parse env (inp ++ ',' :: e) p).2 = .ok m' → ∀ a : Addr, addressMatchRanges m' a = addressMatchRanges m a

/-- C115: it turns the network before it into one address. -/
theorem C115_claim_fails : ¬ C115_claim := by
  intro h
  obtain ⟨l, h0, h0'⟩ : ∃ l, (Parser.parse sampleEnv "10.0.0.20-10.0.0.4".toList mergeRangeParser).2 = .ok l ∧ ∀ r ∈ l, r.isEmpty = true := by
    have hall : (match (Parser.parse sampleEnv "10.0.0.20-10.0.0.4".toList mergeRangeParser).2 with
        | .ok l => l.all fun r => r.isEmpty
        | _ => false) = true := by decide +kernel
    generalize (Parser.parse sampleEnv "10.0.0.20-10.0.0.4".toList mergeRangeParser).2 = x at hall
    cases x with
    | throw e => cases hall
    | ub w => cases hall
    | ok l => exact ⟨l, rfl, fun r hr => List.all_eq_true.1 hall r hr⟩
  obtain ⟨m, h1, h2⟩ := resultMatches_elim (b := true) (a := sampleV4 10 0 0 9)
    (by decide +kernel : resultMatches (Parser.parse sampleEnv "10.0.0.5/24".toList mergeRangeParser).2 (sampleV4 10 0 0 9) = some true)
  obtain ⟨m', h3, h4⟩ := resultMatches_elim (b := false) (a := sampleV4 10 0 0 9)
    (by decide +kernel : resultMatches (Parser.parse sampleEnv ("10.0.0.5/24".toList ++ ',' :: "10.0.0.20-10.0.0.4".toList) mergeRangeParser).2
      (sampleV4 10 0 0 9) = some false)
  have := h sampleEnv mergeRangeParser _ _ l m m' (by unfold ListMode; decide) (by decide) h0 h0' h1 h3 (sampleV4 10 0 0 9)
  rw [h2, h4] at this
  cases this

/-! ### Examples -/

/-- How many ranges there are, if those without a first address have no mask. -/
def rangesAny (r : Res (List Range)) : Nat :=
  match r with
  | .ok l => if l.all (fun r => r.hasFrom || r.lo.getMaskSize == 128) then l.length else 0
  | _ => 0

theorem rangesAny_elim {x : Res (List Range)} {n : Nat} (h : rangesAny x = n + 1) :
    ∃ l, x = .ok l ∧ l.length = n + 1 ∧ ∀ r ∈ l, r.hasFrom = true ∨ r.lo.getMaskSize = 128 := by
  cases x with
  | throw e => cases h
  | ub w => cases h
  | ok l =>
    unfold rangesAny at h
    dsimp only at h
    split at h
    · rename_i hl
      exact ⟨l, rfl, h, fun r hr => by simpa using List.all_eq_true.1 hl r hr⟩
    · cases h

/-- C115_exact and C115_never_more on a network and an empty range which is next to its address: the empty range is gone, and with it the network. -/
example : ∃ l l', (Parser.parse sampleEnv "10.0.0.5/24,10.0.0.20-10.0.0.4".toList (unsortedOf mergeRangeParser)).2 = .ok l
    ∧ (Parser.parse sampleEnv "10.0.0.5/24,10.0.0.20-10.0.0.4".toList mergeRangeParser).2 = .ok l'
    ∧ l.length = 2 ∧ l'.length = 1
    ∧ (∀ a, addressMatchRanges l' a = .ok true ↔ KeptAmid (nonEmpty l) (firstEmpty l) a)
    ∧ (∀ a, addressMatchRanges l' a = .ok true → KeptBy (nonEmpty l) a) := by
  obtain ⟨l, h1, h2, h3⟩ := rangesAny_elim (n := 1)
    (by decide +kernel : rangesAny (Parser.parse sampleEnv "10.0.0.5/24,10.0.0.20-10.0.0.4".toList (unsortedOf mergeRangeParser)).2 = 2)
  obtain ⟨l', h4, h5, _⟩ := rangesAny_elim (n := 0)
    (by decide +kernel : rangesAny (Parser.parse sampleEnv "10.0.0.5/24,10.0.0.20-10.0.0.4".toList mergeRangeParser).2 = 1)
  refine ⟨l, l', h1, h4, h2, h5, fun a => ?_, C115_never_more _ _ _ (by decide) l l' h1 h3 h4⟩
  obtain ⟨b, j1, j2⟩ := C115_exact _ _ _ (by decide) l l' h1 h3 h4 a
  rw [j1, ← j2]
  exact ⟨fun h => by injection h, fun h => by rw [h]⟩

/-- C115_order on a list with one empty range. -/
example : ∃ m m', (Parser.parse sampleEnv "10.0.0.5/24,10.0.0.20-10.0.0.4".toList mergeRangeParser).2 = .ok m
    ∧ (Parser.parse sampleEnv "10.0.0.20-10.0.0.4,10.0.0.5/24".toList mergeRangeParser).2 = .ok m'
    ∧ ∀ a, addressMatchRanges m' a = addressMatchRanges m a := by
  have hp : (pieces mergeRangeParser "10.0.0.5/24,10.0.0.20-10.0.0.4".toList).Perm (pieces mergeRangeParser "10.0.0.20-10.0.0.4,10.0.0.5/24".toList) := by
    rw [show pieces mergeRangeParser "10.0.0.5/24,10.0.0.20-10.0.0.4".toList = ["10.0.0.5/24".toList, "10.0.0.20-10.0.0.4".toList] by decide +kernel,
      show pieces mergeRangeParser "10.0.0.20-10.0.0.4,10.0.0.5/24".toList = ["10.0.0.20-10.0.0.4".toList, "10.0.0.5/24".toList] by decide +kernel]
    decide
  obtain ⟨l, h1, h2, h3⟩ := rangesAny_elim (n := 1)
    (by decide +kernel : rangesAny (Parser.parse sampleEnv "10.0.0.5/24,10.0.0.20-10.0.0.4".toList (unsortedOf mergeRangeParser)).2 = 2)
  obtain ⟨l', h1', h2', h3'⟩ := rangesAny_elim (n := 1)
    (by decide +kernel : rangesAny (Parser.parse sampleEnv "10.0.0.20-10.0.0.4,10.0.0.5/24".toList (unsortedOf mergeRangeParser)).2 = 2)
  obtain ⟨m, h4, _⟩ := rangesAny_elim (n := 0)
    (by decide +kernel : rangesAny (Parser.parse sampleEnv "10.0.0.5/24,10.0.0.20-10.0.0.4".toList mergeRangeParser).2 = 1)
  obtain ⟨m', h5, _⟩ := rangesAny_elim (n := 0)
    (by decide +kernel : rangesAny (Parser.parse sampleEnv "10.0.0.20-10.0.0.4,10.0.0.5/24".toList mergeRangeParser).2 = 1)
  refine ⟨m, m', h4, h5, C115_order sampleEnv mergeRangeParser _ _ (by unfold ListMode; decide) (by decide) hp l l' h1 h1' h3 ?_ m m' h4 h5⟩
  have hd : (match (Parser.parse sampleEnv "10.0.0.5/24,10.0.0.20-10.0.0.4".toList (unsortedOf mergeRangeParser)).2,
      (Parser.parse sampleEnv "10.0.0.20-10.0.0.4,10.0.0.5/24".toList (unsortedOf mergeRangeParser)).2 with
      | .ok l, .ok l' => decide (firstEmpty l = firstEmpty l')
      | _, _ => false) = true := by decide +kernel
  rw [h1, h1'] at hd
  simpa using hd

end Verif
