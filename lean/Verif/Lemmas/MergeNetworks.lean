import Verif.SpecMerge
import Verif.Lemmas.ParserWhole
import Verif.Props.AccessList

/-!
# Lemmas: merging networks
-/

namespace Verif

open Spec

/-! ### Sets of networks -/

theorem inNetwork_self (n k : Nat) : InNetwork n n k := rfl

theorem inNetwork_mono {x n k k' : Nat} (hk : k ≤ k') (h : InNetwork x n k') : InNetwork x n k := by
  unfold InNetwork at *
  have e : 2 ^ (128 - k) = 2 ^ (128 - k') * 2 ^ ((128 - k) - (128 - k')) := by
    rw [← Nat.pow_add]
    congr 1
    omega
  rw [e, ← Nat.div_div_eq_div_mul, ← Nat.div_div_eq_div_mul, h]

theorem leftOf_congr {P Q : List (Nat × Nat)} (h : ∀ q, q ∈ P ↔ q ∈ Q) (x : Nat) : LeftOf P x ↔ LeftOf Q x := by
  have hn : ∀ n, NextTo P n ↔ NextTo Q n := fun n => by simp only [NextTo, h]
  simp only [LeftOf, h, hn]

theorem clash_perm {P Q : List (Nat × Nat)} (h : P.Perm Q) : Clash P ↔ Clash Q := by
  have hm : ∀ q, q ∈ P ↔ q ∈ Q := fun q => h.mem_iff
  simp only [Clash, hm, h.count_eq]

/-- Two lists with a gap between them. -/
def Separated (P Q : List (Nat × Nat)) : Prop := ∀ p ∈ P, ∀ q ∈ Q, p.1 + 1 < q.1

theorem leftOf_append {P Q : List (Nat × Nat)} (h : Separated P Q) (x : Nat) : LeftOf (P ++ Q) x ↔ LeftOf P x ∨ LeftOf Q x := by
  have h1 : ∀ p ∈ P, NextTo (P ++ Q) p.1 ↔ NextTo P p.1 := by
    intro p hp
    constructor
    · rintro ⟨q, hq, hn⟩
      rcases List.mem_append.1 hq with hq | hq
      · exact ⟨q, hq, hn⟩
      · have := h p hp q hq
        omega
    · rintro ⟨q, hq, hn⟩
      exact ⟨q, List.mem_append.2 (.inl hq), hn⟩
  have h2 : ∀ p ∈ Q, NextTo (P ++ Q) p.1 ↔ NextTo Q p.1 := by
    intro p hp
    constructor
    · rintro ⟨q, hq, hn⟩
      rcases List.mem_append.1 hq with hq | hq
      · have := h q hq p hp
        omega
      · exact ⟨q, hq, hn⟩
    · rintro ⟨q, hq, hn⟩
      exact ⟨q, List.mem_append.2 (.inr hq), hn⟩
  constructor
  · rintro ⟨q, hq, hx⟩
    rcases List.mem_append.1 hq with hq | hq
    · rw [h1 q hq] at hx
      exact .inl ⟨q, hq, hx⟩
    · rw [h2 q hq] at hx
      exact .inr ⟨q, hq, hx⟩
  · rintro (⟨q, hq, hx⟩ | ⟨q, hq, hx⟩)
    · rw [← h1 q hq] at hx
      exact ⟨q, List.mem_append.2 (.inl hq), hx⟩
    · rw [← h2 q hq] at hx
      exact ⟨q, List.mem_append.2 (.inr hq), hx⟩

theorem clash_append {P Q : List (Nat × Nat)} (h : Separated P Q) : Clash (P ++ Q) ↔ Clash P ∨ Clash Q := by
  constructor
  · rintro ⟨a, ha, h4, hs, b, hb, hab, hf, hk, hd⟩
    rcases List.mem_append.1 ha with ha | ha
    · have hbP : b ∈ P := by
        rcases List.mem_append.1 hb with hb | hb
        · exact hb
        exfalso
        -- the largest number of the first list and the one after it
        have hstep : ∀ d, a.1 + d ≤ b.1 → ∃ p ∈ P, p.1 = a.1 + d := by
          intro d
          induction d with
          | zero => exact fun _ => ⟨a, ha, rfl⟩
          | succ d ih =>
            intro hd'
            obtain ⟨p, hp, hp'⟩ := ih (by omega)
            obtain ⟨q, hq, hq'⟩ := hf (a.1 + (d + 1)) ⟨by omega, hd'⟩
            rcases List.mem_append.1 hq with hq | hq
            · exact ⟨q, hq, hq'⟩
            · have := h p hp q hq
              omega
        obtain ⟨p, hp, hp'⟩ := hstep (b.1 - a.1) (by omega)
        have := h p hp b hb
        omega
      refine .inl ⟨a, ha, h4, fun q hq => hs q (List.mem_append.2 (.inl hq)), b, hbP, hab, ?_, hk, ?_⟩
      · intro v hv
        obtain ⟨q, hq, hq'⟩ := hf v hv
        rcases List.mem_append.1 hq with hq | hq
        · exact ⟨q, hq, hq'⟩
        · have := h b hbP q hq
          have := hv.2
          omega
      · rcases hd with hd | hd
        · exact .inl hd
        · right
          have : Q.count a = 0 := List.count_eq_zero.2 fun h' => by have := h a ha a h'; omega
          rw [List.count_append] at hd
          omega
    · have hbQ : b ∈ Q := by
        rcases List.mem_append.1 hb with hb | hb
        · have := h b hb a ha
          omega
        · exact hb
      refine .inr ⟨a, ha, h4, fun q hq => hs q (List.mem_append.2 (.inr hq)), b, hbQ, hab, ?_, hk, ?_⟩
      · intro v hv
        obtain ⟨q, hq, hq'⟩ := hf v hv
        rcases List.mem_append.1 hq with hq | hq
        · have := h q hq a ha
          have := hv.1
          omega
        · exact ⟨q, hq, hq'⟩
      · rcases hd with hd | hd
        · exact .inl hd
        · right
          have : P.count a = 0 := List.count_eq_zero.2 fun h' => by have := h a h' a ha; omega
          rw [List.count_append] at hd
          omega
  · rintro (⟨a, ha, h4, hs, b, hb, hab, hf, hk, hd⟩ | ⟨a, ha, h4, hs, b, hb, hab, hf, hk, hd⟩)
    · refine ⟨a, List.mem_append.2 (.inl ha), h4, ?_, b, List.mem_append.2 (.inl hb), hab, ?_, hk, ?_⟩
      · intro q hq
        rcases List.mem_append.1 hq with hq | hq
        · exact hs q hq
        · have := h a ha q hq
          omega
      · intro v hv
        obtain ⟨q, hq, hq'⟩ := hf v hv
        exact ⟨q, List.mem_append.2 (.inl hq), hq'⟩
      · rcases hd with hd | hd
        · exact .inl hd
        · exact .inr (by rw [List.count_append]; omega)
    · refine ⟨a, List.mem_append.2 (.inr ha), h4, ?_, b, List.mem_append.2 (.inr hb), hab, ?_, hk, ?_⟩
      · intro q hq
        rcases List.mem_append.1 hq with hq | hq
        · have := h q hq a ha
          omega
        · exact hs q hq
      · intro v hv
        obtain ⟨q, hq, hq'⟩ := hf v hv
        exact ⟨q, List.mem_append.2 (.inr hq), hq'⟩
      · rcases hd with hd | hd
        · exact .inl hd
        · exact .inr (by rw [List.count_append]; omega)

/-! ### Ranges which are networks -/

/-- A range which is a network as the parser reads it. -/
def OneNetwork (r : Range) (q : Nat × Nat) : Prop := IsNetwork r q.1 q.2 ∧ r.hi.getMaskSize = 128

theorem OneNetwork.first {r : Range} {q : Nat × Nat} (h : OneNetwork r q) : first r = q.1 := by
  rw [Verif.first, if_pos h.1.1]
  exact h.1.2.2.1

theorem OneNetwork.last {r : Range} {q : Nat × Nat} (h : OneNetwork r q) : last r = q.1 := by
  rw [Verif.last, if_neg (by rw [h.1.2.1]; exact Bool.false_ne_true)]
  exact h.1.2.2.1

theorem OneNetwork.size {r : Range} {q : Nat × Nat} (h : OneNetwork r q) : r.lo.getMaskSize = q.2 :=
  (C09_mask_size_iff r.lo q.2 h.1.2.2.2.1).2 h.1.2.2.2.2

theorem OneNetwork.le {r : Range} {q : Nat × Nat} (h : OneNetwork r q) : q.2 ≤ 128 := h.1.2.2.2.1

theorem OneNetwork.defined {r : Range} {q : Nat × Nat} (h : OneNetwork r q) : Defined r := .inl h.1.1

/-- What the range built so far stands for. -/
structure Stands (cur : Range) (G : List (Nat × Nat)) : Prop where
  hi : cur.hi.getMaskSize = 128
  defined : Defined cur
  /-- the numbers are those of the range -/
  inside : ∀ g ∈ G, between g.1 (first cur) (last cur)
  filled : ∀ v, between v (first cur) (last cur) → ∃ g ∈ G, g.1 = v
  order : first cur ≤ last cur
  /-- the smallest mask -/
  small : ∃ g ∈ G, cur.lo.getMaskSize = g.2
  smallest : ∀ g ∈ G, cur.lo.getMaskSize ≤ g.2
  le : ∀ g ∈ G, g.2 ≤ 128
  one : first cur = last cur → cur.hasFrom = true ∧ cur.hasTo = false
  more : first cur < last cur → Complete cur
  accepted : isV4 (first cur) → (∃ g, G = [g]) ∨ ∀ g ∈ G, 96 ≤ g.2

theorem OneNetwork.stands {r : Range} {q : Nat × Nat} (h : OneNetwork r q) : Stands r [q] where
  hi := h.2
  defined := h.defined
  inside g hg := by
    rw [List.mem_singleton] at hg
    rw [hg, h.first, h.last]
    exact ⟨Nat.le_refl _, Nat.le_refl _⟩
  filled v hv := by
    rw [h.first, h.last] at hv
    exact ⟨q, List.mem_singleton.2 rfl, Nat.le_antisymm hv.1 hv.2⟩
  order := by rw [h.first, h.last]
  small := ⟨q, List.mem_singleton.2 rfl, h.size⟩
  smallest g hg := by
    rw [List.mem_singleton] at hg
    rw [hg, h.size]
  le g hg := by
    rw [List.mem_singleton] at hg
    rw [hg]
    exact h.le
  one _ := ⟨h.1.1, h.1.2.1⟩
  more h' := by
    rw [h.first, h.last] at h'
    omega
  accepted _ := .inl ⟨q, rfl⟩

theorem Stands.match_iff {cur : Range} {G : List (Nat × Nat)} (h : Stands cur G) (a : Addr) :
    cur.matchAddr a = .ok true ↔ LeftOf G (ip a.getIpv6.addr) := by
  rcases Nat.lt_or_ge (first cur) (last cur) with hlt | hge
  · have hc := h.more hlt
    obtain ⟨b, hb, hb'⟩ := C24_match_complete cur a hc
    rw [← first_of_complete hc, ← last_of_complete hc] at hb'
    rw [hb]
    have : (Res.ok b = Res.ok true) ↔ b = true := ⟨fun h => by injection h, fun h => by rw [h]⟩
    rw [this, hb']
    constructor
    · intro hv
      obtain ⟨g, hg, hg'⟩ := h.filled _ hv
      exact ⟨g, hg, .inl hg'.symm⟩
    · rintro ⟨g, hg, hx | ⟨hn, _⟩⟩
      · rw [hx]
        exact h.inside g hg
      · exfalso
        apply hn
        obtain ⟨h1, h2⟩ := h.inside g hg
        by_cases hl : g.1 = last cur
        · obtain ⟨q, hq, hq'⟩ := h.filled (g.1 - 1) ⟨by omega, by omega⟩
          exact ⟨q, hq, .inr (by omega)⟩
        · obtain ⟨q, hq, hq'⟩ := h.filled (g.1 + 1) ⟨by omega, by omega⟩
          exact ⟨q, hq, .inl hq'⟩
  · have heq : first cur = last cur := Nat.le_antisymm h.order hge
    obtain ⟨hf, ht⟩ := h.one heq
    obtain ⟨g, hg, hsize⟩ := h.small
    have hall : ∀ q ∈ G, q.1 = first cur := fun q hq => by
      obtain ⟨h1, h2⟩ := h.inside q hq
      omega
    have hnet : IsNetwork cur (first cur) g.2 :=
      ⟨hf, ht, by rw [first, if_pos hf]; rfl, h.le g hg, (C09_mask_size_iff cur.lo g.2 (h.le g hg)).1 hsize⟩
    rw [network_match hnet]
    constructor
    · intro hx
      refine ⟨g, hg, .inr ⟨?_, by rw [hall g hg]; exact hx⟩⟩
      rintro ⟨q, hq, hn⟩
      rw [hall q hq, hall g hg] at hn
      omega
    · rintro ⟨q, hq, hx | ⟨_, hx⟩⟩
      · rw [hx, hall q hq]
        exact inNetwork_self _ _
      · rw [hall q hq] at hx
        refine inNetwork_mono ?_ hx
        have := h.smallest q hq
        omega

theorem Stands.noClash {cur : Range} {G : List (Nat × Nat)} (h : Stands cur G) : ¬ Clash G := by
  rintro ⟨a, ha, h4, hs, b, hb, hab, hf, hk, hd⟩
  have hfirst : a.1 = first cur := by
    obtain ⟨h1, h2⟩ := h.inside a ha
    rcases Nat.lt_or_ge (first cur) a.1 with hlt | hge
    · obtain ⟨q, hq, hq'⟩ := h.filled (a.1 - 1) ⟨by omega, by omega⟩
      exact absurd (by omega : q.1 + 1 = a.1) (hs q hq)
    · omega
  rcases h.accepted (by rw [← hfirst]; exact h4) with ⟨g, rfl⟩ | hall
  · rw [List.mem_singleton] at ha hb
    rcases hd with hd | hd
    · exact hd (ha.trans hb.symm)
    · have := List.count_le_length (a := a) (l := [g])
      simp only [List.length_singleton] at this
      omega
  · have h1 := hall a ha
    have h2 := hall b hb
    omega

/-- The union of two ranges of one address. -/
theorem union_two {r s u : Range} (hr : r.isRange = false) (hs : s.isRange = false) (hd : Defined r) (h : r.unionIfPossible s = .ok u)
    (hu : Defined u) : u.hasFrom = true ∧ (u.hasTo = true ↔ first u ≠ last u)
      ∧ (u.hi.getMaskSize = min r.hi.getMaskSize s.hi.getMaskSize ∨ u.hi.getMaskSize = 128) := by
  rw [Range.unionIfPossible] at h
  by_cases h0 : (!r.isDefined && !s.isDefined) = true
  · rw [(defined_isDefined r).2 hd] at h0
    cases h0
  rw [if_neg h0] at h
  dsimp only at h
  generalize (Addr.le r.fromOrTo s.toOrFrom && Addr.ge r.toOrFrom s.fromOrTo
    || Addr.ge r.toOrFrom s.fromOrTo && Addr.le r.fromOrTo s.toOrFrom
    || r.fromOrTo.isPrevious s.toOrFrom || r.toOrFrom.isNext s.fromOrTo) = b at h
  cases b with
  | false =>
    rw [if_neg (by decide)] at h
    cases h
    exact absurd hu (by decide)
  | true =>
    rw [if_pos rfl] at h
    generalize (if Addr.lt r.fromOrTo s.fromOrTo = true then r.fromOrTo else s.fromOrTo) = x at h
    generalize (if Addr.gt r.toOrFrom s.toOrFrom = true then r.toOrFrom else s.toOrFrom) = y at h
    cases h1 : Range.withMaskCount (min r.lo.getMaskSize s.lo.getMaskSize) x with
    | throw e => rw [h1] at h; cases h
    | ub w => rw [h1] at h; cases h
    | ok lo =>
      rw [h1] at h
      cases h2 : Range.withMaskCount (min r.hi.getMaskSize s.hi.getMaskSize) y with
      | throw e => rw [h2] at h; cases h
      | ub w => rw [h2] at h; cases h
      | ok hi =>
        rw [h2] at h
        simp only [Res.bind_ok, hr, hs, Bool.false_or, ne_ip] at h
        split at h
        · rename_i hne
          rw [decide_eq_true_eq] at hne
          cases h
          refine ⟨rfl, ⟨fun _ => hne, fun _ => rfl⟩, .inl ?_⟩
          show hi.getMaskSize = _
          by_cases hacc : MaskCountAccepted (ip y.bytes) (min r.hi.getMaskSize s.hi.getMaskSize)
          · obtain ⟨hi', e1, _, e2⟩ := withMaskCount_ok hacc
            rw [h2] at e1
            cases e1
            exact e2
          · rw [withMaskCount_throw hacc] at h2
            cases h2
        · cases h
          refine ⟨rfl, ⟨(fun h => nomatch h), fun h => absurd rfl h⟩, .inr Parser.default_whole⟩

theorem single_isRange {r : Range} (h : r.hasTo = false) : r.isRange = false := by
  simp [Range.isRange, h]

/-- One step of the loop. -/
theorem Stands.step {cur next : Range} {G : List (Nat × Nat)} {q : Nat × Nat} (h : Stands cur G) (hn : OneNetwork next q)
    (ho : last cur ≤ q.1) :
    (last cur + 1 < q.1 → cur.unionIfPossible next = .ok Range.default)
      ∧ (q.1 ≤ last cur + 1 →
          (cur.unionIfPossible next = .throw .outOfRange ∧ isV4 (first cur) ∧ ((∃ g, G = [g] ∧ g.2 < 96) ∨ q.2 < 96))
            ∨ ∃ u, cur.unionIfPossible next = .ok u ∧ Stands u (G ++ [q]) ∧ last u = q.1) := by
  obtain ⟨c1, c2, c3⟩ := union_cases cur next h.defined
  rw [hn.first, hn.last] at c1 c2 c3
  have hord := h.order
  refine ⟨fun hgap => c1 (by omega), fun hmeet => ?_⟩
  have hmeet' : (first cur ≤ q.1 ∧ q.1 ≤ last cur) ∨ q.1 + 1 = first cur ∨ q.1 = last cur + 1 := by omega
  have hlo := hn.size
  have hq := hn.le
  obtain ⟨g, hg, hsize⟩ := h.small
  have hg128 := h.le g hg
  by_cases hacc : UnionMasksAccepted cur next
  · right
    obtain ⟨u, e, hd, f, l, hmask, hcomp⟩ := c3 hmeet' hacc
    have hfirst : first u = first cur := by rw [f]; omega
    have hlast : last u = q.1 := by rw [l]; omega
    have hhi : u.hi.getMaskSize = 128 ∧ (first u = last u → u.hasFrom = true ∧ u.hasTo = false)
        ∧ (first u < last u → Complete u) := by
      rcases Nat.lt_or_ge (first cur) (last cur) with hlt | hge
      · obtain ⟨j1, j2⟩ := hcomp (.inl (h.more hlt))
        exact ⟨by rw [j2, h.hi, hn.2]; rfl, fun h' => by omega, fun _ => j1⟩
      · obtain ⟨k1, k2⟩ := h.one (by omega)
        obtain ⟨j1, j2, j3⟩ := union_two (single_isRange k2) (single_isRange hn.1.2.1) h.defined e hd
        refine ⟨?_, ?_, ?_⟩
        · rcases j3 with j3 | j3
          · rw [j3, h.hi, hn.2]; rfl
          · exact j3
        · intro h'
          refine ⟨j1, ?_⟩
          by_cases ht : u.hasTo = true
          · exact absurd h' (j2.1 ht)
          · exact Bool.not_eq_true _ ▸ ht
        · exact fun h' => ⟨j1, j2.2 (by omega)⟩
    refine ⟨u, e, ⟨hhi.1, hd, ?_, ?_, by omega, ?_, ?_, ?_, hhi.2.1, hhi.2.2, ?_⟩, hlast⟩
    · intro x hx
      rw [hfirst, hlast]
      rcases List.mem_append.1 hx with hx | hx
      · obtain ⟨j1, j2⟩ := h.inside x hx
        exact ⟨j1, by omega⟩
      · rw [List.mem_singleton] at hx
        rw [hx]
        exact ⟨by omega, Nat.le_refl _⟩
    · intro v hv
      rw [hfirst, hlast] at hv
      obtain ⟨hv1, hv2⟩ := hv
      by_cases hvl : v ≤ last cur
      · obtain ⟨x, hx, hx'⟩ := h.filled v ⟨hv1, hvl⟩
        exact ⟨x, List.mem_append.2 (.inl hx), hx'⟩
      · exact ⟨q, List.mem_append.2 (.inr (List.mem_singleton.2 rfl)), by omega⟩
    · rw [hmask, hlo, hsize]
      rcases Nat.lt_or_ge g.2 q.2 with hlt | hge
      · exact ⟨g, List.mem_append.2 (.inl hg), by omega⟩
      · exact ⟨q, List.mem_append.2 (.inr (List.mem_singleton.2 rfl)), by omega⟩
    · intro x hx
      rw [hmask, hlo]
      rcases List.mem_append.1 hx with hx | hx
      · have := h.smallest x hx
        omega
      · rw [List.mem_singleton] at hx
        rw [hx]
        omega
    · intro x hx
      rcases List.mem_append.1 hx with hx | hx
      · exact h.le x hx
      · rw [List.mem_singleton] at hx
        rw [hx]
        exact hq
    · intro h4
      right
      have := hacc.1
      rw [hn.first, Nat.min_eq_left (by omega), hlo] at this
      unfold MaskCountAccepted at this
      rw [hfirst] at h4
      rw [if_pos h4] at this
      intro x hx
      rcases List.mem_append.1 hx with hx | hx
      · have := h.smallest x hx
        omega
      · rw [List.mem_singleton] at hx
        rw [hx]
        omega
  · left
    refine ⟨c2 hmeet' hacc, ?_⟩
    have hhi : MaskCountAccepted (max (last cur) (last next)) (min cur.hi.getMaskSize next.hi.getMaskSize) := by
      rw [h.hi, hn.2]
      unfold MaskCountAccepted
      split <;> omega
    have hlo' : ¬ MaskCountAccepted (first cur) (min g.2 q.2 : Int) := by
      intro h'
      refine hacc ⟨?_, hhi⟩
      rw [hn.first, Nat.min_eq_left (by omega), hlo, hsize]
      exact h'
    unfold MaskCountAccepted at hlo'
    by_cases h4 : isV4 (first cur)
    · rw [if_pos h4] at hlo'
      refine ⟨h4, ?_⟩
      by_cases hq96 : q.2 < 96
      · exact .inr hq96
      · have hg96 : g.2 < 96 := by omega
        rcases h.accepted h4 with ⟨g', rfl⟩ | hall
        · rw [List.mem_singleton] at hg
          exact .inl ⟨g', rfl, hg ▸ hg96⟩
        · have := hall g hg
          omega
    · rw [if_neg h4] at hlo'
      omega

/-- What the loop leaves. -/
theorem mergeLoop_networks (cur : Range) (G : List (Nat × Nat)) (l : List Range) (Q : List (Nat × Nat)) (hc : Stands cur G)
    (hl : List.Forall₂ OneNetwork l Q) (hlast : ∀ q ∈ Q, last cur ≤ q.1) (hp : Q.Pairwise fun a b => a.1 ≤ b.1) :
    (Parser.mergeLoop cur l = .throw .outOfRange ∧ Clash (G ++ Q))
      ∨ ∃ l', Parser.mergeLoop cur l = .ok l' ∧ ¬ Clash (G ++ Q)
        ∧ ∀ a : Addr, (∃ r ∈ l', r.matchAddr a = .ok true) ↔ LeftOf (G ++ Q) (ip a.getIpv6.addr) := by
  induction hl generalizing cur G with
  | nil =>
    refine .inr ⟨[cur], rfl, by rw [List.append_nil]; exact hc.noClash, fun a => ?_⟩
    rw [List.append_nil, ← hc.match_iff]
    simp
  | @cons next q l Q hn hl ih =>
    rw [List.pairwise_cons] at hp
    have hq := hlast q List.mem_cons_self
    obtain ⟨s1, s2⟩ := hc.step hn hq
    rw [Parser.mergeLoop]
    rcases Nat.lt_or_ge (last cur + 1) q.1 with hgap | hmeet
    · rw [s1 hgap]
      simp only [Res.bind_ok]
      rw [if_neg (by decide)]
      have hsep : Separated G (q :: Q) := by
        intro g hg x hx
        have := (hc.inside g hg).2
        rcases List.mem_cons.1 hx with rfl | hx
        · omega
        · have := hp.1 x hx
          omega
      rw [clash_append hsep]
      have hih := ih next [q] hn.stands (fun x hx => by rw [hn.last]; exact hp.1 x hx) hp.2
      rw [List.singleton_append] at hih
      rcases hih with ⟨h1, h2⟩ | ⟨l', h1, h2, h3⟩
      · exact .inl ⟨by rw [h1]; rfl, .inr h2⟩
      · refine .inr ⟨cur :: l', by rw [h1]; rfl, fun h => h.elim hc.noClash h2, fun a => ?_⟩
        rw [leftOf_append hsep, ← h3 a, ← hc.match_iff]
        simp
    · rcases s2 hmeet with ⟨e, h4, hk⟩ | ⟨u, e, hu, hul⟩
      · left
        rw [e]
        refine ⟨rfl, ?_⟩
        obtain ⟨g, hg, hg'⟩ := hc.filled (first cur) ⟨Nat.le_refl _, hc.order⟩
        have hord := hc.order
        have hmem : q ∈ G ++ q :: Q := List.mem_append.2 (.inr List.mem_cons_self)
        refine ⟨g, List.mem_append.2 (.inl hg), by rw [hg']; exact h4, ?_, q, hmem, by omega, ?_, ?_, ?_⟩
        · intro x hx
          rw [hg']
          rcases List.mem_append.1 hx with hx | hx
          · have := (hc.inside x hx).1
            omega
          · have := hlast x hx
            omega
        · rintro v ⟨hv1, hv2⟩
          by_cases hv : v ≤ last cur
          · obtain ⟨x, hx, hx'⟩ := hc.filled v ⟨by omega, hv⟩
            exact ⟨x, List.mem_append.2 (.inl hx), hx'⟩
          · exact ⟨q, hmem, by omega⟩
        · rcases hk with ⟨g', hG, hk⟩ | hk
          · rw [hG, List.mem_singleton] at hg
            exact .inl (hg ▸ hk)
          · exact .inr hk
        · by_cases hgq : g = q
          · right
            rw [List.count_append]
            have h1 : 0 < G.count g := List.count_pos_iff.2 hg
            have h2 : 0 < (q :: Q).count g := List.count_pos_iff.2 (by rw [hgq]; exact List.mem_cons_self)
            omega
          · exact .inl hgq
      · rw [e]
        simp only [Res.bind_ok]
        have hdef : (u.isDefined && !u.isEmpty) = true := by
          rw [(defined_isDefined u).2 hu.defined]
          have : ¬ u.isEmpty = true := fun h => by
            have := (isEmpty_first_last hu.defined).1 h
            have := hu.order
            omega
          simp [this]
        rw [if_pos hdef]
        have := ih u (G ++ [q]) hu (fun x hx => by rw [hul]; exact hp.1 x hx) hp.2
        rw [List.append_assoc, List.singleton_append] at this
        exact this

end Verif
