import Mathlib.Data.List.Perm.Subperm
import Verif.Props.OptimizeFix

/-!
# C112: when `optimize_vector()` fails
-/

namespace Verif

open Spec

/-- Two networks which overlap or are next to each other, of which one has more than 2^32 addresses, and such that the first or the last
address of both together is an IPv4 address. -/
def Clash (x y : Nat × Nat) : Prop :=
  meetOrTouch x.1 x.2 y.1 y.2 ∧ (2 ^ 32 ≤ x.2 - x.1 ∨ 2 ^ 32 ≤ y.2 - y.1) ∧ (isV4 (min x.1 y.1) ∨ isV4 (max x.2 y.2))

instance (x y : Nat × Nat) : Decidable (Clash x y) := by unfold Clash meetOrTouch; infer_instance

theorem Clash.symm {x y : Nat × Nat} (h : Clash x y) : Clash y x := by
  obtain ⟨h1, h2, h3⟩ := h
  refine ⟨⟨h1.2, h1.1⟩, h2.symm, ?_⟩
  rw [Nat.min_comm, Nat.max_comm]
  exact h3

/-- No two networks of the list clash. -/
abbrev NoClash (l : List Addr) : Prop := (l.map networkOf).Pairwise fun x y => ¬ Clash x y

theorem block_large {r : Range} {a : Addr} {n : Nat} (h : IsBlockOf r a n) : 2 ^ 32 ≤ (networkOf a).2 - (networkOf a).1 ↔ n < 96 := by
  have hl := h.length
  have hn := h.le
  show 2 ^ 32 ≤ cidrLast a - cidrFirst a ↔ n < 96
  have hp : 0 < 2 ^ (128 - n) := Nat.pow_pos (by decide)
  have e : cidrLast a - cidrFirst a = 2 ^ (128 - n) - 1 := by omega
  rw [e]
  constructor
  · intro h'
    have : (2 : Nat) ^ 32 < 2 ^ (128 - n) := by omega
    have := (Nat.pow_lt_pow_iff_right (a := 2) (by decide)).1 this
    omega
  · intro h'
    have : (2 : Nat) ^ 32 < 2 ^ (128 - n) := Nat.pow_lt_pow_right (by decide) (by omega)
    omega

theorem accepted_iff {ra rb : Range} {a b : Addr} {n m : Nat} (ha : IsBlockOf ra a n) (hb : IsBlockOf rb b m) :
    UnionMasksAccepted ra rb ↔ ¬ ((2 ^ 32 ≤ (networkOf a).2 - (networkOf a).1 ∨ 2 ^ 32 ≤ (networkOf b).2 - (networkOf b).1)
      ∧ (isV4 (min (networkOf a).1 (networkOf b).1) ∨ isV4 (max (networkOf a).2 (networkOf b).2))) := by
  rw [block_large ha, block_large hb]
  unfold UnionMasksAccepted MaskCountAccepted networkOf
  rw [ha.cidr.1, ha.cidr.2, hb.cidr.1, hb.cidr.2, ha.loSize, hb.loSize, ha.hiSize, hb.hiSize]
  have la := ha.le
  have lb := hb.le
  by_cases h1 : isV4 (min (cidrFirst a) (cidrFirst b)) <;> by_cases h2 : isV4 (max (cidrLast a) (cidrLast b)) <;>
    simp only [h1, h2, if_true, if_false, or_true, or_self, or_false, and_true, and_false, not_false_iff, iff_true] <;> omega

/-- The union of two blocks throws exactly when their networks clash. -/
theorem union_clash {ra rb : Range} {a b : Addr} {n m : Nat} (ha : IsBlockOf ra a n) (hb : IsBlockOf rb b m) :
    (Clash (networkOf a) (networkOf b) → ra.unionIfPossible rb = .throw .outOfRange)
      ∧ (¬ Clash (networkOf a) (networkOf b) → ∃ u, ra.unionIfPossible rb = .ok u) := by
  have hda : Defined ra := .inl ha.complete.1
  obtain ⟨c1, c2, c3⟩ := union_cases ra rb hda
  have la := ha.first_le_last
  have lb := hb.first_le_last
  have hmeet : meetOrTouch (networkOf a).1 (networkOf a).2 (networkOf b).1 (networkOf b).2
      ↔ (first ra ≤ last rb ∧ first rb ≤ last ra) ∨ last rb + 1 = first ra ∨ first rb = last ra + 1 := by
    unfold meetOrTouch networkOf
    rw [← ha.cidr.1, ← ha.cidr.2, ← hb.cidr.1, ← hb.cidr.2]
    dsimp only
    omega
  have hacc := accepted_iff ha hb
  unfold Clash
  rw [hmeet]
  constructor
  · rintro ⟨h1, h2⟩
    exact c2 h1 fun h => hacc.1 h h2
  · intro h
    by_cases h1 : (first ra ≤ last rb ∧ first rb ≤ last ra) ∨ last rb + 1 = first ra ∨ first rb = last ra + 1
    · obtain ⟨u, e, _⟩ := c3 h1 (hacc.2 fun h2 => h ⟨h1, h2⟩)
      exact ⟨u, e⟩
    · exact ⟨_, c1 h1⟩

theorem merge_same {ra rb u : Range} {a b : Addr} {n m : Nat} (ha : IsBlockOf ra a n) (hb : IsBlockOf rb b m)
    (hu : ra.unionIfPossible rb = .ok u) (ht : mergeTest u = true) :
    networkOf (u.lo.applyMask false) = networkOf a ∨ networkOf (u.lo.applyMask false) = networkOf b := by
  have h := (merge_keeps ha hb hu ht []).1 (networkOf (u.lo.applyMask false)) List.mem_cons_self
  simpa using h

theorem merge_nested {ra rb u : Range} {a b : Addr} {n m : Nat} (ha : IsBlockOf ra a n) (hb : IsBlockOf rb b m)
    (hu : ra.unionIfPossible rb = .ok u) (ht : mergeTest u = true) : Nested a b := by
  obtain ⟨y, hy, h1⟩ := (merge_keeps ha hb hu ht []).2 (networkOf a) List.mem_cons_self
  obtain ⟨z, hz, h2⟩ := (merge_keeps ha hb hu ht []).2 (networkOf b) (List.mem_cons_of_mem _ List.mem_cons_self)
  simp only [List.map_cons, List.map_nil, List.mem_cons, List.not_mem_nil, or_false] at hy hz
  subst hy hz
  rcases merge_same ha hb hu ht with e | e <;> rw [e] at h1 h2
  · exact .inl h2
  · exact .inr h1

theorem inner_subperm (l : List Addr) (ra : Range) (vi : Addr) (n : Nat) (h : IsBlockOf ra vi n) :
    List.Subperm (((optimizeInner ra vi l).1 :: (optimizeInner ra vi l).2.1).map networkOf) ((vi :: l).map networkOf) := by
  induction l generalizing ra vi n with
  | nil => exact List.Subperm.refl _
  | cons vj rest ih =>
    rw [optimizeInner]
    split
    · exact List.Subperm.refl _
    · exact List.Subperm.refl _
    · rename_i rb hrb
      split
      · exact List.Subperm.refl _
      · exact List.Subperm.refl _
      · rename_i u hu
        obtain ⟨m, hb⟩ := fromCidr_block hrb
        dsimp only
        split <;> rename_i ht
        · refine (ih u _ _ (merge_block h hb hu ht).1).trans ?_
          simp only [List.map_cons]
          rcases merge_same h hb hu ht with e | e <;> rw [e]
          · exact (List.sublist_cons_self _ _).cons_cons _ |>.subperm
          · exact (List.sublist_cons_self _ _).subperm
        · have := ih ra vi n h
          simp only [List.map_cons] at this ⊢
          exact ((List.Perm.swap _ _ _).subperm.trans ((List.subperm_cons (networkOf vj)).2 this)).trans (List.Perm.swap _ _ _).subperm

theorem outer_subperm (k : Nat) (l : List Addr) (hk : l.length ≤ k) : List.Subperm ((optimizeOuter l).1.map networkOf) (l.map networkOf) := by
  induction k generalizing l with
  | zero =>
    have : l = [] := List.length_eq_zero_iff.1 (by omega)
    subst this
    simp [optimizeOuter]
  | succ k ih =>
    cases l with
    | nil => simp [optimizeOuter]
    | cons vi rest =>
      cases hra : Range.fromCidr vi with
      | throw e =>
        rw [optimizeOuter, hra]
      | ub w =>
        rw [optimizeOuter, hra]
      | ok ra =>
        obtain ⟨n, hblk⟩ := fromCidr_block hra
        have i1 := inner_subperm rest ra vi n hblk
        have i4 := optimizeInner_length ra vi rest
        obtain ⟨vi', rest', b, e, hin⟩ : ∃ vi' rest' b e, optimizeInner ra vi rest = (vi', rest', b, e) := ⟨_, _, _, _, rfl⟩
        rw [hin] at i1 i4
        simp only at i1 i4
        by_cases he : e = .ok ()
        · subst he
          rw [outer_cons_ok hra hin]
          simp only [List.length_cons] at hk
          exact ((List.subperm_cons (networkOf vi')).2 (ih rest' (by omega))).trans i1
        · rw [outer_cons_stop hra hin he]
          exact i1

theorem NoClash.subperm {v w : List Addr} (h : NoClash v) (hs : List.Subperm (w.map networkOf) (v.map networkOf)) : NoClash w := by
  obtain ⟨l, hp, hl⟩ := hs
  exact (hp.pairwise_iff fun h h' => h h'.symm).1 (h.sublist hl)

theorem inner_ok (l : List Addr) (ra : Range) (vi : Addr) (n : Nat) (h : IsBlockOf ra vi n) (hl : AllCidr l) (hc : NoClash (vi :: l)) :
    (optimizeInner ra vi l).2.2.2 = .ok () := by
  induction l generalizing ra vi n with
  | nil => rfl
  | cons vj rest ih =>
    have hr : AllCidr rest := fun a ha => hl a (List.mem_cons_of_mem _ ha)
    obtain ⟨rb, hrb⟩ := fromCidr_ok (hl vj List.mem_cons_self)
    obtain ⟨m, hblk⟩ := fromCidr_block hrb
    have hij : ¬ Clash (networkOf vi) (networkOf vj) := (List.pairwise_cons.1 hc).1 _ List.mem_cons_self
    obtain ⟨u, hu⟩ := (union_clash h hblk).2 hij
    by_cases ht : mergeTest u = true
    · have hs : List.Subperm ((u.lo.applyMask false :: rest).map networkOf) ((vi :: vj :: rest).map networkOf) := by
        simp only [List.map_cons]
        rcases merge_same h hblk hu ht with e | e <;> rw [e]
        · exact (List.sublist_cons_self _ _).cons_cons _ |>.subperm
        · exact (List.sublist_cons_self _ _).subperm
      have := ih u (u.lo.applyMask false) _ (merge_block h hblk hu ht).1 hr (hc.subperm hs)
      unfold mergeTest at ht
      simp only [optimizeInner, hrb, hu, if_pos ht]
      exact this
    · have := ih ra vi n h hr (hc.subperm (by
        simp only [List.map_cons]
        exact ((List.sublist_cons_self _ _).cons_cons _).subperm))
      unfold mergeTest at ht
      simp only [optimizeInner, hrb, hu, if_neg ht]
      exact this

theorem outer_ok (k : Nat) (l : List Addr) (hk : l.length ≤ k) (hl : AllCidr l) (hc : NoClash l) : (optimizeOuter l).2.2 = .ok () := by
  induction k generalizing l with
  | zero =>
    have : l = [] := List.length_eq_zero_iff.1 (by omega)
    subst this
    simp [optimizeOuter]
  | succ k ih =>
    cases l with
    | nil => simp [optimizeOuter]
    | cons vi rest =>
      obtain ⟨ra, hra⟩ := fromCidr_ok (hl vi List.mem_cons_self)
      obtain ⟨n, hblk⟩ := fromCidr_block hra
      have hr : AllCidr rest := fun a ha => hl a (List.mem_cons_of_mem _ ha)
      have i1 := inner_subperm rest ra vi n hblk
      have i2 := inner_ok rest ra vi n hblk hr hc
      have i3 := (inner_sizes rest ra vi n hblk hr).2
      have i4 := optimizeInner_length ra vi rest
      obtain ⟨vi', rest', b, e, hin⟩ : ∃ vi' rest' b e, optimizeInner ra vi rest = (vi', rest', b, e) := ⟨_, _, _, _, rfl⟩
      rw [hin] at i1 i2 i3 i4
      simp only at i1 i2 i3 i4
      subst i2
      rw [outer_cons_ok hra hin]
      simp only [List.length_cons] at hk
      exact ih rest' (by omega) i3 (List.pairwise_cons.1 (hc.subperm i1)).2

theorem optimizeVector_ok {v : List Addr} (h : (optimizeOuter v).2.2 = .ok ()) : ∃ b, (optimizeVector v).2 = .ok b := by
  refine ⟨(optimizeOuter v).2.1, ?_⟩
  unfold optimizeVector
  split <;> simp_all

/-! ## C112 -/

/-- C112: one call only removes networks. -/
theorem C112_only_removes (v : List Addr) : List.Subperm ((optimizeVector v).1.map networkOf) (v.map networkOf) := by
  rw [optimizeVector_fst]
  exact outer_subperm v.length v (Nat.le_refl _)

/-- C112: the call returns when every mask is a number of bits and no two networks clash. -/
theorem C112_returns (v : List Addr) (hv : AllCidr v) (hc : NoClash v) : ∃ b, (optimizeVector v).2 = .ok b :=
  optimizeVector_ok (outer_ok v.length v (Nat.le_refl _) hv hc)

/-- C112: and so does the loop which calls the function until nothing is left to do. -/
theorem C112_ends (v : List Addr) (hv : AllCidr v) (hc : NoClash v) : ∃ n w, Optimised n v w := by
  have key : ∀ k (v : List Addr), v.length ≤ k → AllCidr v → NoClash v → ∃ n w, Optimised n v w := by
    intro k
    induction k with
    | zero =>
      intro v hk _ _
      have : v = [] := List.length_eq_zero_iff.1 (by omega)
      subst this
      exact ⟨1, [], .stop (by simp [optimizeVector, optimizeOuter])⟩
    | succ k ih =>
      intro v hk hv hc
      obtain ⟨b, hb⟩ := C112_returns v hv hc
      cases b with
      | false => exact ⟨1, _, .stop (Prod.ext rfl hb)⟩
      | true =>
        have h2 := (C33_result v true hb).1.1 rfl
        have h3 : AllCidr (optimizeVector v).1 := by
          rw [optimizeVector_fst]
          exact outer_sizes v.length v (Nat.le_refl _) hv
        obtain ⟨n, w, hw⟩ := ih (optimizeVector v).1 (by omega) h3 (hc.subperm (C112_only_removes v))
        exact ⟨n + 1, w, .again (Prod.ext rfl hb) hw⟩
  exact key v.length v (Nat.le_refl _) hv hc

theorem inner_apart (l : List Addr) (ra : Range) (vi : Addr) (n : Nat) (h : IsBlockOf ra vi n) (hl : AllCidr l)
    (hn : ∀ b ∈ l, ¬ Nested vi b) :
    (optimizeInner ra vi l).1 = vi ∧ (optimizeInner ra vi l).2.1 = l ∧ (optimizeInner ra vi l).2.2.1 = false
      ∧ ((optimizeInner ra vi l).2.2.2 = .ok () ∧ (∀ b ∈ l, ¬ Clash (networkOf vi) (networkOf b))
        ∨ (optimizeInner ra vi l).2.2.2 = .throw .outOfRange ∧ ∃ b ∈ l, Clash (networkOf vi) (networkOf b)) := by
  induction l with
  | nil => exact ⟨rfl, rfl, rfl, .inl ⟨rfl, fun b hb => nomatch hb⟩⟩
  | cons vj rest ih =>
    have hr : AllCidr rest := fun a ha => hl a (List.mem_cons_of_mem _ ha)
    obtain ⟨rb, hrb⟩ := fromCidr_ok (hl vj List.mem_cons_self)
    obtain ⟨m, hblk⟩ := fromCidr_block hrb
    by_cases hij : Clash (networkOf vi) (networkOf vj)
    · have hu := (union_clash h hblk).1 hij
      simp only [optimizeInner, hrb, hu]
      exact ⟨trivial, trivial, trivial, .inr ⟨trivial, vj, List.mem_cons_self, hij⟩⟩
    · obtain ⟨u, hu⟩ := (union_clash h hblk).2 hij
      have ht : ¬ mergeTest u = true := fun ht => hn vj List.mem_cons_self (merge_nested h hblk hu ht)
      obtain ⟨i1, i2, i3, i4⟩ := ih hr fun b hb => hn b (List.mem_cons_of_mem _ hb)
      unfold mergeTest at ht
      simp only [optimizeInner, hrb, hu, if_neg ht]
      refine ⟨i1, by rw [i2], i3, ?_⟩
      rcases i4 with ⟨e, h4⟩ | ⟨e, b, hb, h4⟩
      · refine .inl ⟨e, fun b hb => ?_⟩
        rcases List.mem_cons.1 hb with rfl | hb
        · exact hij
        · exact h4 b hb
      · exact .inr ⟨e, b, List.mem_cons_of_mem _ hb, h4⟩

theorem outer_apart (l : List Addr) (hl : AllCidr l) (hn : l.Pairwise fun a b => ¬ Nested a b) :
    (optimizeOuter l).1 = l ∧ (optimizeOuter l).2.1 = false
      ∧ ((optimizeOuter l).2.2 = .ok () ∧ NoClash l ∨ (optimizeOuter l).2.2 = .throw .outOfRange ∧ ¬ NoClash l) := by
  induction l with
  | nil => simp [optimizeOuter, NoClash]
  | cons vi rest ih =>
    obtain ⟨n1, n2⟩ := List.pairwise_cons.1 hn
    have hr : AllCidr rest := fun a ha => hl a (List.mem_cons_of_mem _ ha)
    obtain ⟨ra, hra⟩ := fromCidr_ok (hl vi List.mem_cons_self)
    obtain ⟨n, hblk⟩ := fromCidr_block hra
    obtain ⟨i1, i2, i3, i4⟩ := inner_apart rest ra vi n hblk hr n1
    obtain ⟨j1, j2, j3⟩ := ih hr n2
    obtain ⟨vi', rest', b, e, hin⟩ : ∃ vi' rest' b e, optimizeInner ra vi rest = (vi', rest', b, e) := ⟨_, _, _, _, rfl⟩
    rw [hin] at i1 i2 i3 i4
    simp only at i1 i2 i3 i4
    subst i1 i2 i3
    have hcons : NoClash (vi' :: rest') ↔ (∀ b ∈ rest', ¬ Clash (networkOf vi') (networkOf b)) ∧ NoClash rest' := by
      unfold NoClash
      rw [List.map_cons, List.pairwise_cons]
      simp
    rcases i4 with ⟨rfl, h4⟩ | ⟨rfl, b, hb, h4⟩
    · rw [outer_cons_ok hra hin]
      refine ⟨by rw [j1], by rw [j2]; rfl, ?_⟩
      rw [hcons]
      rcases j3 with ⟨e, h⟩ | ⟨e, h⟩
      · exact .inl ⟨e, h4, h⟩
      · exact .inr ⟨e, fun h' => h h'.2⟩
    · rw [outer_cons_stop hra hin (by simp)]
      exact ⟨rfl, rfl, .inr ⟨rfl, fun h => (hcons.1 h).1 b hb h4⟩⟩

theorem inner_not_cidr (l : List Addr) (ra : Range) (vi : Addr) (n : Nat) (h : IsBlockOf ra vi n) (hl : ¬ AllCidr l) :
    ∃ e, (optimizeInner ra vi l).2.2.2 = .throw e := by
  induction l generalizing ra vi n with
  | nil => exact absurd (fun a ha => nomatch ha) hl
  | cons vj rest ih =>
    by_cases hj : 0 ≤ vj.getMaskSize
    · have hr : ¬ AllCidr rest := fun hr => hl fun a ha => by
        rcases List.mem_cons.1 ha with rfl | ha
        · exact hj
        · exact hr a ha
      obtain ⟨rb, hrb⟩ := fromCidr_ok hj
      obtain ⟨m, hblk⟩ := fromCidr_block hrb
      by_cases hij : Clash (networkOf vi) (networkOf vj)
      · have hu := (union_clash h hblk).1 hij
        simp only [optimizeInner, hrb, hu]
        exact ⟨_, rfl⟩
      · obtain ⟨u, hu⟩ := (union_clash h hblk).2 hij
        by_cases ht : mergeTest u = true
        · have := ih u _ _ (merge_block h hblk hu ht).1 hr
          unfold mergeTest at ht
          simp only [optimizeInner, hrb, hu, if_pos ht]
          exact this
        · have := ih ra vi n h hr
          unfold mergeTest at ht
          simp only [optimizeInner, hrb, hu, if_neg ht]
          exact this
    · have e : Range.fromCidr vj = .throw .unsupportedAsRange := by
        rcases getMaskSize_cases vj with ⟨h1, _⟩ | ⟨k, _, h1, _⟩
        · rw [Range.fromCidr, if_pos h1]
        · omega
      simp only [optimizeInner, e]
      exact ⟨_, rfl⟩

/-- C112: with a mask which is not a number of bits the call always throws. -/
theorem C112_not_cidr (v : List Addr) (hv : ¬ AllCidr v) : ∃ e, (optimizeVector v).2 = .throw e := by
  have key : ∃ e, (optimizeOuter v).2.2 = .throw e := by
    cases v with
    | nil => exact absurd (fun a ha => nomatch ha) hv
    | cons vi rest =>
      by_cases hi : 0 ≤ vi.getMaskSize
      · have hr : ¬ AllCidr rest := fun hr => hv fun a ha => by
          rcases List.mem_cons.1 ha with rfl | ha
          · exact hi
          · exact hr a ha
        obtain ⟨ra, hra⟩ := fromCidr_ok hi
        obtain ⟨n, hblk⟩ := fromCidr_block hra
        obtain ⟨e, he⟩ := inner_not_cidr rest ra vi n hblk hr
        obtain ⟨vi', rest', b, e', hin⟩ : ∃ vi' rest' b e, optimizeInner ra vi rest = (vi', rest', b, e) := ⟨_, _, _, _, rfl⟩
        rw [hin] at he
        simp only at he
        subst he
        rw [outer_cons_stop hra hin (by simp)]
        exact ⟨_, rfl⟩
      · have e : Range.fromCidr vi = .throw .unsupportedAsRange := by
          rcases getMaskSize_cases vi with ⟨h1, _⟩ | ⟨k, _, h1, _⟩
          · rw [Range.fromCidr, if_pos h1]
          · omega
        rw [optimizeOuter, e]
        exact ⟨_, rfl⟩
  obtain ⟨e, he⟩ := key
  refine ⟨e, ?_⟩
  unfold optimizeVector
  split <;> simp_all

/-- C112: when no network is within another one the vector stays as it is, and the call throws `out_of_range` exactly when two of the
networks clash. -/
theorem C112_exact (v : List Addr) (hv : AllCidr v) (hn : v.Pairwise fun a b => ¬ Nested a b) :
    (optimizeVector v).1 = v ∧ ((optimizeVector v).2 = .ok false ↔ NoClash v)
      ∧ ((optimizeVector v).2 = .throw .outOfRange ↔ ¬ NoClash v) := by
  obtain ⟨h1, h2, h3⟩ := outer_apart v hv hn
  have e1 : (optimizeVector v).1 = v := by rw [optimizeVector_fst]; exact h1
  rcases h3 with ⟨e, h⟩ | ⟨e, h⟩
  · have e2 : (optimizeVector v).2 = .ok false := by
      unfold optimizeVector
      split <;> simp_all
    rw [e2]
    exact ⟨e1, ⟨fun _ => h, fun _ => rfl⟩, ⟨(fun h' => nomatch h'), fun h' => absurd h h'⟩⟩
  · have e2 : (optimizeVector v).2 = .throw .outOfRange := by
      unfold optimizeVector
      split <;> simp_all
    rw [e2]
    exact ⟨e1, ⟨(fun h' => nomatch h'), fun h' => absurd h' h⟩, ⟨fun _ => h, fun _ => rfl⟩⟩

/-- C112: when the loop of calls ends, no two of the networks which are left clash. -/
theorem C112_left (n : Nat) (v w : List Addr) (h : Optimised n v w) : NoClash w := by
  induction h with
  | @stop v w h =>
    have h1 := C34_no_nested_partial v (by rw [h])
    rw [h] at h1
    have h2 : w = v := h1.1
    subst h2
    have h3 : AllCidr w := by
      refine Classical.byContradiction fun hc => ?_
      obtain ⟨e, he⟩ := C112_not_cidr w hc
      rw [h] at he
      cases he
    exact (C112_exact w h3 h1.2).2.1.1 (by rw [h])
  | again _ _ ih => exact ih

/-- C112: the outcome for two entries. -/
theorem C112_two (a b : Addr) (hv : AllCidr [a, b]) :
    (optimizeVector [a, b]).2 = .throw .outOfRange ↔ Clash (networkOf a) (networkOf b) := by
  obtain ⟨ra, hra⟩ := fromCidr_ok (hv a List.mem_cons_self)
  obtain ⟨n, hblk⟩ := fromCidr_block hra
  obtain ⟨rb, hrb⟩ := fromCidr_ok (hv b (List.mem_cons_of_mem _ List.mem_cons_self))
  obtain ⟨m, hblk'⟩ := fromCidr_block hrb
  constructor
  · intro h
    refine Decidable.byContradiction fun hc => ?_
    obtain ⟨c, hok⟩ := C112_returns [a, b] hv (by simpa [NoClash] using hc)
    rw [h] at hok
    cases hok
  · intro hc
    have hu := (union_clash hblk hblk').1 hc
    have hin : optimizeInner ra a [b] = (a, [b], false, .throw .outOfRange) := by simp only [optimizeInner, hrb, hu]
    have := outer_cons_stop hra hin (by simp)
    unfold optimizeVector
    rw [this]

/-- An entry as it is usually written: an IPv4 network, or an IPv6 one which neither begins nor ends in the block of the IPv4 addresses or
right beside it. -/
def Usual (a : Addr) : Prop :=
  (96 ≤ a.getMaskSize ∧ isV4 (cidrFirst a) ∧ isV4 (cidrLast a))
    ∨ (0 ≤ a.getMaskSize ∧ ¬ isV4 (cidrFirst a) ∧ ¬ isV4 (cidrLast a) ∧ cidrFirst a ≠ 2 ^ 48 ∧ cidrLast a + 1 ≠ 0xffff00000000)

theorem isV4_bounds (x : Nat) : isV4 x ↔ 0xffff00000000 ≤ x ∧ x < 2 ^ 48 := by
  unfold isV4 inBlock
  omega

/-- C112: lists of usual networks, of both families, never make the function fail, and the loop ends. -/
theorem C112_usual (v : List Addr) (hv : ∀ a ∈ v, Usual a) : (∃ b, (optimizeVector v).2 = .ok b) ∧ ∃ n w, Optimised n v w := by
  have h0 : AllCidr v := by
    intro a ha
    rcases hv a ha with h | h <;> omega
  have hc : NoClash v := by
    unfold NoClash
    rw [List.pairwise_map]
    refine List.Pairwise.imp_of_mem (R := fun _ _ => True) ?_ (List.pairwise_of_forall fun _ _ => trivial)
    intro a b ha hb _ ⟨h1, h2, h3⟩
    obtain ⟨ra, hra⟩ := fromCidr_ok (h0 a ha)
    obtain ⟨rb, hrb⟩ := fromCidr_ok (h0 b hb)
    obtain ⟨n, hn⟩ := fromCidr_block hra
    obtain ⟨m, hm⟩ := fromCidr_block hrb
    rw [block_large hn, block_large hm] at h2
    have la : cidrFirst a ≤ cidrLast a := by rw [← hn.cidr.1, ← hn.cidr.2]; exact hn.first_le_last
    have lb : cidrFirst b ≤ cidrLast b := by rw [← hm.cidr.1, ← hm.cidr.2]; exact hm.first_le_last
    have ua := hv a ha
    have ub := hv b hb
    unfold Usual at ua ub
    rw [hn.size] at ua
    rw [hm.size] at ub
    simp only [isV4_bounds] at ua ub h3
    unfold meetOrTouch networkOf at h1
    unfold networkOf at h3
    dsimp only at h1 h3
    rcases ua with ua | ua <;> rcases ub with ub | ub <;> omega
  exact ⟨C112_returns v h0 hc, C112_ends v h0 hc⟩

/-! ### Examples -/

/-- `::1:0:0:0/80`, the network right after the IPv4 addresses. -/
def besideFour : Addr :=
  { sampleAddr #v[0, 0, 0, 0, 0, 0, 0, 0, 0, 1, 0, 0, 0, 0, 0, 0] with mask := prefixBytes 80, maskDefined := true }

/-- `::/0`. -/
def wholeSix : Addr := { Addr.default with mask := prefixBytes 0, maskDefined := true }

/-- `2001:db8::/32`. -/
def docSix : Addr :=
  { sampleAddr #v[0x20, 1, 0x0d, 0xb8, 0, 0, 0, 0, 0, 0, 0, 0, 0, 0, 0, 0] with mask := prefixBytes 32, maskDefined := true }

example : Clash (networkOf (sampleCidr 255 0 0 0 8)) (networkOf besideFour) := by decide +kernel

example : (optimizeVector [sampleCidr 255 0 0 0 8, besideFour]).2 = .throw .outOfRange :=
  (C112_two _ _ (by unfold AllCidr; decide +kernel)).2 (by decide +kernel)

/-- C112: networks which clash do no harm when a larger one removes one of them before they meet. -/
theorem C112_removed_before : ¬ NoClash [wholeSix, sampleCidr 255 0 0 0 8, besideFour]
    ∧ optimizeVector [wholeSix, sampleCidr 255 0 0 0 8, besideFour] = ([wholeSix], .ok true) := by decide +kernel

example : ∀ a ∈ [sampleCidr 10 0 0 0 8, docSix, wholeSix, sampleCidr 10 0 0 0 16], Usual a := by
  unfold Usual
  decide +kernel

example : ∃ n w, Optimised n [sampleCidr 10 0 0 0 8, docSix, sampleCidr 10 0 0 0 16] w :=
  (C112_usual _ (by unfold Usual; decide +kernel)).2

end Verif
