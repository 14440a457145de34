import Verif.Props.RangeOptimize

/-!
# Property C98: calling `optimize_vector()` until nothing changes
-/

namespace Verif

open Spec

/-- The network of an entry: its first and last addresses. -/
def networkOf (a : Addr) : Nat × Nat := (cidrFirst a, cidrLast a)

/-- One network is within the other one, or is the same. -/
def Inside (x y : Nat × Nat) : Prop := y.1 ≤ x.1 ∧ x.2 ≤ y.2

/-- The network is written in the vector and is within no other network of the vector. -/
def Largest (v : List Addr) (x : Nat × Nat) : Prop := x ∈ v.map networkOf ∧ ∀ y ∈ v.map networkOf, Inside x y → y = x

/-- `while(optimize_vector(v));` starts with the vector `v` and ends with the vector `w`, after this number of calls. -/
inductive Optimised : (calls : Nat) → (v w : List Addr) → Prop
  | stop {v w : List Addr} (h : optimizeVector v = (w, .ok false)) : Optimised 1 v w
  | again {n : Nat} {v v' w : List Addr} (h : optimizeVector v = (v', .ok true)) (hw : Optimised n v' w) : Optimised (n + 1) v w

/-- What a change of the vector keeps: no network is made up, and none is lost. -/
def Keeps (v w : List Addr) : Prop :=
  (∀ x ∈ w.map networkOf, x ∈ v.map networkOf) ∧ ∀ x ∈ v.map networkOf, ∃ y ∈ w.map networkOf, Inside x y

theorem inside_refl (x : Nat × Nat) : Inside x x := ⟨Nat.le_refl _, Nat.le_refl _⟩

theorem Inside.trans {x y z : Nat × Nat} (h : Inside x y) (h' : Inside y z) : Inside x z :=
  ⟨Nat.le_trans h'.1 h.1, Nat.le_trans h.2 h'.2⟩

theorem Keeps.refl (v : List Addr) : Keeps v v := ⟨fun _ h => h, fun x h => ⟨x, h, inside_refl x⟩⟩

theorem Keeps.trans {u v w : List Addr} (h : Keeps u v) (h' : Keeps v w) : Keeps u w := by
  refine ⟨fun x hx => h.1 x (h'.1 x hx), fun x hx => ?_⟩
  obtain ⟨y, hy, hxy⟩ := h.2 x hx
  obtain ⟨z, hz, hyz⟩ := h'.2 y hy
  exact ⟨z, hz, hxy.trans hyz⟩

theorem Keeps.cons {v w : List Addr} (a : Addr) (h : Keeps v w) : Keeps (a :: v) (a :: w) := by
  constructor
  · intro x hx
    rcases List.mem_cons.1 hx with rfl | hx
    · exact List.mem_cons_self
    · exact List.mem_cons_of_mem _ (h.1 x hx)
  · intro x hx
    rcases List.mem_cons.1 hx with rfl | hx
    · exact ⟨_, List.mem_cons_self, inside_refl _⟩
    · obtain ⟨y, hy, hxy⟩ := h.2 x hx
      exact ⟨y, List.mem_cons_of_mem _ hy, hxy⟩

theorem Keeps.swap (a b : Addr) (l : List Addr) : Keeps (a :: b :: l) (b :: a :: l) := by
  have : ∀ x, x ∈ (a :: b :: l).map networkOf ↔ x ∈ (b :: a :: l).map networkOf := by
    intro x
    simp only [List.map_cons, List.mem_cons]
    exact or_left_comm
  exact ⟨fun x hx => (this x).2 hx, fun x hx => ⟨x, (this x).1 hx, inside_refl x⟩⟩

theorem IsBlockOf.length {r : Range} {a : Addr} {n : Nat} (h : IsBlockOf r a n) : cidrLast a = cidrFirst a + (2 ^ (128 - n) - 1) := by
  rw [← h.cidr.1, ← h.cidr.2, first_of_complete h.complete, last_of_complete h.complete, h.first, h.last, block_last_eq]

/-- Two blocks which are merged are one within the other, and the larger one is kept. -/
theorem merge_keeps {ra rb u : Range} {a b : Addr} {n m : Nat} (ha : IsBlockOf ra a n) (hb : IsBlockOf rb b m)
    (hu : ra.unionIfPossible rb = .ok u) (ht : mergeTest u = true) (l : List Addr) : Keeps (a :: b :: l) (u.lo.applyMask false :: l) := by
  obtain ⟨hblk, hun⟩ := merge_block ha hb hu ht
  have c := hblk.cidr
  have ca := ha.cidr
  have cb := hb.cidr
  have la := ha.length
  have lb := hb.length
  have lu := hblk.length
  have fa := ha.first_le_last
  have fb := hb.first_le_last
  have i1 := (hun (first ra)).2 (.inl ⟨Nat.le_refl _, fa⟩)
  have i2 := (hun (last ra)).2 (.inl ⟨fa, Nat.le_refl _⟩)
  have i3 := (hun (first rb)).2 (.inr ⟨Nat.le_refl _, fb⟩)
  have i4 := (hun (last rb)).2 (.inr ⟨fb, Nat.le_refl _⟩)
  unfold between at i1 i2 i3 i4
  rw [c.1, c.2, ca.1] at i1
  rw [c.1, c.2, ca.2] at i2
  rw [c.1, c.2, cb.1] at i3
  rw [c.1, c.2, cb.2] at i4
  have ina : Inside (networkOf a) (networkOf (u.lo.applyMask false)) := ⟨i1.1, i2.2⟩
  have inb : Inside (networkOf b) (networkOf (u.lo.applyMask false)) := ⟨i3.1, i4.2⟩
  have hsame : networkOf (u.lo.applyMask false) = networkOf a ∨ networkOf (u.lo.applyMask false) = networkOf b := by
    rcases Nat.le_total n m with h | h
    · rw [Nat.min_eq_left h] at lu
      left
      exact Prod.ext (by show cidrFirst _ = cidrFirst _; omega) (by show cidrLast _ = cidrLast _; omega)
    · rw [Nat.min_eq_right h] at lu
      right
      exact Prod.ext (by show cidrFirst _ = cidrFirst _; omega) (by show cidrLast _ = cidrLast _; omega)
  constructor
  · intro x hx
    rcases List.mem_cons.1 hx with rfl | hx
    · rcases hsame with h | h
      · exact h ▸ List.mem_cons_self
      · exact h ▸ List.mem_cons_of_mem _ List.mem_cons_self
    · exact List.mem_cons_of_mem _ (List.mem_cons_of_mem _ hx)
  · intro x hx
    rcases List.mem_cons.1 hx with rfl | hx
    · exact ⟨_, List.mem_cons_self, ina⟩
    · rcases List.mem_cons.1 hx with rfl | hx
      · exact ⟨_, List.mem_cons_self, inb⟩
      · exact ⟨x, List.mem_cons_of_mem _ hx, inside_refl x⟩

theorem inner_keeps (l : List Addr) (ra : Range) (vi : Addr) (n : Nat) (h : IsBlockOf ra vi n) :
    Keeps (vi :: l) ((optimizeInner ra vi l).1 :: (optimizeInner ra vi l).2.1) := by
  induction l generalizing ra vi n with
  | nil => exact Keeps.refl _
  | cons vj rest ih =>
    rw [optimizeInner]
    split
    · exact Keeps.refl _
    · exact Keeps.refl _
    · rename_i rb hrb
      split
      · exact Keeps.refl _
      · exact Keeps.refl _
      · rename_i u hu
        obtain ⟨m, hb⟩ := fromCidr_block hrb
        dsimp only
        split <;> rename_i ht
        · exact (merge_keeps h hb hu ht rest).trans (ih u _ _ (merge_block h hb hu ht).1)
        · exact (Keeps.swap vi vj rest).trans (((ih ra vi n h).cons vj).trans (Keeps.swap _ _ _))

theorem outer_keeps (k : Nat) (l : List Addr) (hk : l.length ≤ k) : Keeps l (optimizeOuter l).1 := by
  induction k generalizing l with
  | zero =>
    have : l = [] := List.length_eq_zero_iff.1 (by omega)
    subst this
    simp [optimizeOuter, Keeps.refl]
  | succ k ih =>
    cases l with
    | nil => simp [optimizeOuter, Keeps.refl]
    | cons vi rest =>
      cases hra : Range.fromCidr vi with
      | throw e =>
        rw [optimizeOuter, hra]
        exact Keeps.refl _
      | ub w =>
        rw [optimizeOuter, hra]
        exact Keeps.refl _
      | ok ra =>
        obtain ⟨n, hblk⟩ := fromCidr_block hra
        have i1 := inner_keeps rest ra vi n hblk
        have i4 := optimizeInner_length ra vi rest
        obtain ⟨vi', rest', b, e, hin⟩ : ∃ vi' rest' b e, optimizeInner ra vi rest = (vi', rest', b, e) := ⟨_, _, _, _, rfl⟩
        rw [hin] at i1 i4
        simp only at i1 i4
        by_cases he : e = .ok ()
        · subst he
          rw [outer_cons_ok hra hin]
          simp only [List.length_cons] at hk
          exact i1.trans ((ih rest' (by omega)).cons vi')
        · rw [outer_cons_stop hra hin he]
          exact i1

/-- C98: one call makes up no network and loses none, whether it returns or throws: each network of the result was in the vector, and each
network of the vector is within one of the result. -/
theorem C98_one_call (v : List Addr) :
    (∀ x ∈ (optimizeVector v).1.map networkOf, x ∈ v.map networkOf)
      ∧ ∀ x ∈ v.map networkOf, ∃ y ∈ (optimizeVector v).1.map networkOf, Inside x y := by
  rw [optimizeVector_fst]
  exact outer_keeps v.length v (Nat.le_refl _)

theorem optimised_keeps {n : Nat} {v w : List Addr} (h : Optimised n v w) : Keeps v w ∧ w.Pairwise (fun a b => ¬ Nested a b) := by
  induction h with
  | @stop v w h =>
    have h1 := C34_no_nested_partial v (by rw [h])
    rw [h] at h1
    have h2 : w = v := h1.1
    rw [h2]
    exact ⟨Keeps.refl _, h1.2⟩
  | @again n v v' w h _ ih =>
    have h1 := C98_one_call v
    rw [h] at h1
    exact ⟨Keeps.trans h1 ih.1, ih.2⟩

/-- C98: calling the function until it returns false leaves exactly the largest networks, each of them once. -/
theorem C98_largest (n : Nat) (v w : List Addr) (h : Optimised n v w) :
    (w.map networkOf).Nodup ∧ ∀ x, x ∈ w.map networkOf ↔ Largest v x := by
  obtain ⟨hk, hp⟩ := optimised_keeps h
  have hnest : ∀ a b, Inside (networkOf a) (networkOf b) → Nested a b := fun a b h => .inr h
  have hpair : ∀ x ∈ w.map networkOf, ∀ y ∈ w.map networkOf, Inside x y → x = y := by
    clear hk h
    induction w with
    | nil => exact fun x hx => nomatch hx
    | cons a w ih =>
      obtain ⟨h1, h2⟩ := List.pairwise_cons.1 hp
      intro x hx y hy hxy
      rcases List.mem_cons.1 hx with e | hx <;> rcases List.mem_cons.1 hy with e' | hy
      · rw [e, e']
      · obtain ⟨b, hb, rfl⟩ := List.mem_map.1 hy
        subst e
        exact absurd (hnest a b hxy) (h1 b hb)
      · obtain ⟨b, hb, rfl⟩ := List.mem_map.1 hx
        subst e'
        exact absurd (.inl hxy) (h1 b hb)
      · exact ih h2 x hx y hy hxy
  refine ⟨?_, fun x => ⟨fun hx => ⟨hk.1 x hx, fun y hy hxy => ?_⟩, fun ⟨hx, hmax⟩ => ?_⟩⟩
  · rw [List.Nodup, List.pairwise_map]
    refine hp.imp fun {a b} h' e => h' (hnest a b ?_)
    rw [e]
    exact inside_refl _
  · obtain ⟨z, hz, hyz⟩ := hk.2 y hy
    have e := hpair x hx z hz (hxy.trans hyz)
    rw [← e] at hyz
    exact Prod.ext (Nat.le_antisymm hxy.1 hyz.1) (Nat.le_antisymm hyz.2 hxy.2)
  · obtain ⟨y, hy, hxy⟩ := hk.2 x hx
    rw [← hmax y (hk.1 y hy) hxy]
    exact hy

/-- C98: the addresses matched are the same, and the number of calls is at most that of the entries removed, plus one. -/
theorem C98_matches (n : Nat) (v w : List Addr) (h : Optimised n v w) :
    (∀ x : Addr, (∃ a ∈ w, a.matchAddr x = true) ↔ ∃ a ∈ v, a.matchAddr x = true) ∧ n + w.length ≤ v.length + 1 := by
  induction h with
  | @stop v w h =>
    have h1 := fun x => C33_coverage v x
    rw [h] at h1
    exact ⟨fun x => (h1 x).1, by have := (h1 Addr.default).2; dsimp only at this; omega⟩
  | @again n v v' w h _ ih =>
    have h1 := fun x => C33_coverage v x
    have h2 := (C33_result v true (by rw [h])).1.1 rfl
    rw [h] at h1 h2
    exact ⟨fun x => (ih.1 x).trans (h1 x).1, by have := ih.2; dsimp only at h2; omega⟩

/-- C98: two ways to write the same largest networks are left with the same networks, in some order. -/
theorem C98_canonical (n n' : Nat) (v v' w w' : List Addr) (h : Optimised n v w) (h' : Optimised n' v' w')
    (hs : ∀ x, Largest v x ↔ Largest v' x) : (w.map networkOf).Perm (w'.map networkOf) := by
  obtain ⟨h1, h2⟩ := C98_largest n v w h
  obtain ⟨h3, h4⟩ := C98_largest n' v' w' h'
  exact (List.perm_ext_iff_of_nodup h1 h3).2 fun x => by rw [h2, h4, hs]

theorem ofFamily_keeps {four : Bool} {v w : List Addr} (hk : Keeps v w) (hc : ∀ a ∈ w, 0 ≤ a.getMaskSize) (hv : ∀ a ∈ v, OfFamily four a) :
    ∀ a ∈ w, OfFamily four a := by
  intro a ha
  obtain ⟨b, hb, e⟩ := List.mem_map.1 (hk.1 _ (List.mem_map_of_mem ha))
  have h1 := hv b hb
  have e1 : cidrFirst b = cidrFirst a := congrArg Prod.fst e
  have e2 : cidrLast b = cidrLast a := congrArg Prod.snd e
  obtain ⟨ra, hra⟩ := fromCidr_ok (hc a ha)
  obtain ⟨rb, hrb⟩ := fromCidr_ok h1.nonneg
  obtain ⟨n, hn⟩ := fromCidr_block hra
  obtain ⟨m, hm⟩ := fromCidr_block hrb
  have l1 := hn.length
  have l2 := hm.length
  have p1 : 0 < 2 ^ (128 - n) := Nat.pow_pos (by decide)
  have p2 : 0 < 2 ^ (128 - m) := Nat.pow_pos (by decide)
  have hpow : 2 ^ (128 - n) = 2 ^ (128 - m) := by omega
  have hnm : n = m := by
    have i1 := (Nat.pow_le_pow_iff_right (a := 2) (by decide)).1 (Nat.le_of_eq hpow)
    have i2 := (Nat.pow_le_pow_iff_right (a := 2) (by decide)).1 (Nat.le_of_eq hpow.symm)
    have := hn.le
    have := hm.le
    omega
  unfold OfFamily at h1 ⊢
  rw [← e1, ← e2, hn.size, hnm, ← hm.size]
  exact h1

theorem inner_sizes (l : List Addr) (ra : Range) (vi : Addr) (n : Nat) (h : IsBlockOf ra vi n) (hl : ∀ a ∈ l, 0 ≤ a.getMaskSize) :
    0 ≤ (optimizeInner ra vi l).1.getMaskSize ∧ ∀ a ∈ (optimizeInner ra vi l).2.1, 0 ≤ a.getMaskSize := by
  have h0 : 0 ≤ vi.getMaskSize := by rw [h.size]; omega
  induction l generalizing ra vi n with
  | nil => exact ⟨h0, fun a ha => nomatch ha⟩
  | cons vj rest ih =>
    have hr := fun a ha => hl a (List.mem_cons_of_mem _ ha)
    rw [optimizeInner]
    split
    · exact ⟨h0, hl⟩
    · exact ⟨h0, hl⟩
    · rename_i rb hrb
      split
      · exact ⟨h0, hl⟩
      · exact ⟨h0, hl⟩
      · rename_i u hu
        obtain ⟨m, hb⟩ := fromCidr_block hrb
        dsimp only
        split <;> rename_i ht
        · have hblk := (merge_block h hb hu ht).1
          exact ih u _ _ hblk hr (by rw [hblk.size]; omega)
        · obtain ⟨i1, i2⟩ := ih ra vi n h hr h0
          refine ⟨i1, fun a ha => ?_⟩
          rcases List.mem_cons.1 ha with rfl | ha
          · exact hl _ List.mem_cons_self
          · exact i2 a ha

theorem outer_sizes (k : Nat) (l : List Addr) (hk : l.length ≤ k) (hl : ∀ a ∈ l, 0 ≤ a.getMaskSize) :
    ∀ a ∈ (optimizeOuter l).1, 0 ≤ a.getMaskSize := by
  induction k generalizing l with
  | zero =>
    have : l = [] := List.length_eq_zero_iff.1 (by omega)
    subst this
    simp [optimizeOuter]
  | succ k ih =>
    cases l with
    | nil => simp [optimizeOuter]
    | cons vi rest =>
      obtain ⟨ra, hra⟩ := fromCidr_ok (hl vi List.mem_cons_self)
      obtain ⟨n, hblk⟩ := fromCidr_block hra
      obtain ⟨i1, i2⟩ := inner_sizes rest ra vi n hblk fun a ha => hl a (List.mem_cons_of_mem _ ha)
      have i4 := optimizeInner_length ra vi rest
      obtain ⟨vi', rest', b, e, hin⟩ : ∃ vi' rest' b e, optimizeInner ra vi rest = (vi', rest', b, e) := ⟨_, _, _, _, rfl⟩
      rw [hin] at i1 i2 i4
      simp only at i1 i2 i4
      by_cases he : e = .ok ()
      · subst he
        rw [outer_cons_ok hra hin]
        simp only [List.length_cons] at hk
        intro a ha
        rcases List.mem_cons.1 ha with rfl | ha
        · exact i1
        · exact ih rest' (by omega) i2 a ha
      · rw [outer_cons_stop hra hin he]
        intro a ha
        rcases List.mem_cons.1 ha with rfl | ha
        · exact i1
        · exact i2 a ha

theorem oneFamily_iff (v : List Addr) : OneFamily v ↔ ∃ four, ∀ a ∈ v, OfFamily four a := by
  constructor
  · rintro (h | h)
    · exact ⟨true, h⟩
    · exact ⟨false, h⟩
  · rintro ⟨_ | _, h⟩
    · exact .inr h
    · exact .inl h

/-- C98: the loop ends when the networks are all of IPv4 or all of IPv6. -/
theorem C98_ends (v : List Addr) (h : OneFamily v) : ∃ n w, Optimised n v w := by
  have key : ∀ k (v : List Addr), v.length ≤ k → OneFamily v → ∃ n w, Optimised n v w := by
    intro k
    induction k with
    | zero =>
      intro v hk _
      have : v = [] := List.length_eq_zero_iff.1 (by omega)
      subst this
      exact ⟨1, [], .stop (by simp [optimizeVector, optimizeOuter])⟩
    | succ k ih =>
      intro v hk hv
      obtain ⟨b, hb⟩ := C34_never_fails_partial v hv
      cases b with
      | false => exact ⟨1, (optimizeVector v).1, .stop (Prod.ext rfl hb)⟩
      | true =>
        have h1 := (C33_result v true hb).1.1 rfl
        obtain ⟨four, hf⟩ := (oneFamily_iff v).1 hv
        have hkeep := C98_one_call v
        have hsz : ∀ a ∈ (optimizeVector v).1, 0 ≤ a.getMaskSize := by
          rw [optimizeVector_fst]
          exact outer_sizes v.length v (Nat.le_refl _) fun a ha => (hf a ha).nonneg
        obtain ⟨n, w, hw⟩ := ih (optimizeVector v).1 (by omega) ((oneFamily_iff _).2 ⟨four, ofFamily_keeps hkeep hsz hf⟩)
        exact ⟨n + 1, w, .again (Prod.ext rfl hb) hw⟩
  exact key v.length v (Nat.le_refl _) h

/-! ### Examples -/

/-- One call leaves `10.0.1.0/24` although `10.0.0.0/16` is there, the second call removes it and the third one has nothing to do. -/
theorem C98_sample : Optimised 3 [sampleCidr 10 0 0 0 24, sampleCidr 10 0 1 0 24, sampleCidr 10 0 0 0 16] [sampleCidr 10 0 0 0 16] :=
  .again (v' := [sampleCidr 10 0 0 0 16, sampleCidr 10 0 1 0 24]) (by decide +kernel)
    (.again (v' := [sampleCidr 10 0 0 0 16]) (by decide +kernel) (.stop (by decide +kernel)))

example : ∀ x, x ∈ [sampleCidr 10 0 0 0 16].map networkOf
    ↔ Largest [sampleCidr 10 0 0 0 24, sampleCidr 10 0 1 0 24, sampleCidr 10 0 0 0 16] x := (C98_largest 3 _ _ C98_sample).2

/-- The halves of a network are kept apart: they are the largest ones which are written. -/
example : Optimised 1 [sampleCidr 10 0 0 0 24, sampleCidr 10 0 1 0 24] [sampleCidr 10 0 0 0 24, sampleCidr 10 0 1 0 24] :=
  .stop (by decide +kernel)

end Verif
