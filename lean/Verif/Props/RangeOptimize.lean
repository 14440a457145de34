import Verif.Props.RangeOrder

/-!
# Properties C33 and C34: `optimize_vector()`
-/

namespace Verif

open Spec

/-- Some entry of the vector matches the address. -/
def MatchedBy (l : List Addr) (x : Addr) : Prop := ∃ a ∈ l, a.matchAddr x = true

/-- What the inner loop knows of `ra` and `v[i]`: the range is complete, not empty, and is the block of the address; its
two bounds have the mask size of the address. -/
structure IsBlockOf (r : Range) (a : Addr) (n : Nat) : Prop where
  complete : Complete r
  le : n ≤ 128
  size : a.getMaskSize = n
  loSize : r.lo.getMaskSize = n
  hiSize : r.hi.getMaskSize = n
  first : fromIp r = blockFirst (ip a.bytes) n
  last : toIp r = blockLast (ip a.bytes) n

theorem fromCidr_block {a : Addr} {r : Range} (h : Range.fromCidr a = .ok r) : ∃ n, IsBlockOf r a n := by
  unfold Range.fromCidr at h
  split at h
  · cases h
  · rename_i hm
    rcases getMaskSize_cases a with ⟨h1, _⟩ | ⟨n, hn, h1, h2⟩
    · exact absurd h1 hm
    · cases h
      exact ⟨n, ⟨rfl, rfl⟩, hn, h2, h2, h2, ip_applyMask_false hn h1, ip_applyMask_true hn h1⟩

theorem blockFirst_le_last (v n : Nat) : blockFirst v n ≤ blockLast v n := by
  unfold blockFirst blockLast; omega

theorem IsBlockOf.first_le_last {r : Range} {a : Addr} {n : Nat} (h : IsBlockOf r a n) : Verif.first r ≤ Verif.last r := by
  rw [first_of_complete h.complete, last_of_complete h.complete, h.first, h.last]
  exact blockFirst_le_last _ _

theorem IsBlockOf.match_iff {r : Range} {a : Addr} {n : Nat} (h : IsBlockOf r a n) (x : Addr) :
    a.matchAddr x = true ↔ between (ip x.getIpv6.addr) (Verif.first r) (Verif.last r) := by
  obtain ⟨h1, h2⟩ := C10_apply_mask_block a n h.size
  rw [first_of_complete h.complete, last_of_complete h.complete, C11_match_block a x n h.size, h1, h2, h.first, h.last]
  rfl

theorem blockFirst_idem (v n : Nat) : blockFirst (blockFirst v n) n = blockFirst v n := by
  unfold blockFirst
  rw [Nat.mul_div_cancel _ (Nat.pow_pos (by decide))]

theorem blockLast_of_first (v n : Nat) : blockLast (blockFirst v n) n = blockLast v n := by
  unfold blockFirst blockLast
  rw [Nat.mul_div_cancel _ (Nat.pow_pos (by decide))]

/-- The test made on the union of two blocks. -/
def mergeTest (u : Range) : Bool :=
  u.isDefined && (Addr.eq (u.lo.applyMask false) u.lo && Addr.eq (u.lo.applyMask true) u.hi)

/-- A union which passes the test is the block of the address stored in the vector. -/
theorem merge_block {ra rb u : Range} {a b : Addr} {n m : Nat} (ha : IsBlockOf ra a n) (hb : IsBlockOf rb b m)
    (hu : ra.unionIfPossible rb = .ok u) (ht : mergeTest u = true) :
    IsBlockOf u (u.lo.applyMask false) (min n m)
      ∧ ∀ v, between v (first u) (last u) ↔ between v (first ra) (last ra) ∨ between v (first rb) (last rb) := by
  have hda : Defined ra := .inl ha.complete.1
  have hdb : Defined rb := .inl hb.complete.1
  unfold mergeTest at ht
  rw [Bool.and_eq_true, Bool.and_eq_true, defined_isDefined, eq_ip, eq_ip, decide_eq_true_iff, decide_eq_true_iff] at ht
  obtain ⟨hd, t1, t2⟩ := ht
  refine ⟨?_, C30_union_sound ra rb u hda hdb hu hd⟩
  obtain ⟨c1, c2, c3⟩ := union_cases ra rb hda
  by_cases hmeet : (first ra ≤ last rb ∧ first rb ≤ last ra) ∨ last rb + 1 = first ra ∨ first rb = last ra + 1
  · by_cases hm : UnionMasksAccepted ra rb
    · obtain ⟨u', e, _, f, l, s, k⟩ := c3 hmeet hm
      obtain ⟨k1, k2⟩ := k (.inl ha.complete)
      obtain rfl : u' = u := by rw [e] at hu; cases hu; rfl
      have hle : min n m ≤ 128 := by have := ha.le; omega
      have hs : u'.lo.getMaskSize = (min n m : Nat) := by
        rw [s, ha.loSize, hb.loSize]; omega
      have hmask : ip u'.lo.mask = prefixMask (min n m) := (C09_mask_size_iff u'.lo _ hle).1 hs
      rw [ip_applyMask_false hle hmask] at t1
      rw [ip_applyMask_true hle hmask] at t2
      refine ⟨k1, hle, hs, hs, by rw [k2, ha.hiSize, hb.hiSize]; omega, ?_, ?_⟩
      · rw [ip_applyMask_false hle hmask, blockFirst_idem]
        exact t1.symm
      · rw [ip_applyMask_false hle hmask, blockLast_of_first]
        exact t2.symm
    · rw [c2 hmeet hm] at hu; cases hu
  · rw [c1 hmeet] at hu
    cases hu
    exact absurd hd (by decide)

/-- What the inner loop guarantees, however it ends. -/
theorem inner_spec (l : List Addr) (ra : Range) (vi : Addr) (n : Nat) (h : IsBlockOf ra vi n) :
    (∀ x, MatchedBy ((optimizeInner ra vi l).1 :: (optimizeInner ra vi l).2.1) x ↔ MatchedBy (vi :: l) x)
      ∧ ((optimizeInner ra vi l).2.2.1 = true ↔ (optimizeInner ra vi l).2.1.length < l.length)
      ∧ ((optimizeInner ra vi l).2.2.1 = false → (optimizeInner ra vi l).1 = vi ∧ (optimizeInner ra vi l).2.1 = l) := by
  induction l generalizing ra vi n with
  | nil => simp [optimizeInner, MatchedBy]
  | cons vj rest ih =>
    have hsame : ∀ e : Res Unit, (∀ x, MatchedBy ((vi, vj :: rest, false, e).1 :: (vi, vj :: rest, false, e).2.1) x ↔ MatchedBy (vi :: vj :: rest) x)
        ∧ ((vi, vj :: rest, false, e).2.2.1 = true ↔ (vi, vj :: rest, false, e).2.1.length < (vj :: rest).length)
        ∧ ((vi, vj :: rest, false, e).2.2.1 = false → (vi, vj :: rest, false, e).1 = vi ∧ (vi, vj :: rest, false, e).2.1 = vj :: rest) := by
      intro e; simp
    rw [optimizeInner]
    split
    · exact hsame _
    · exact hsame _
    · rename_i rb hrb
      split
      · exact hsame _
      · exact hsame _
      · rename_i u hu
        obtain ⟨m, hb⟩ := fromCidr_block hrb
        dsimp only
        split <;> rename_i ht
        · obtain ⟨hblk, hun⟩ := merge_block h hb hu ht
          obtain ⟨i1, i2, i3⟩ := ih u (u.lo.applyMask false) _ hblk
          refine ⟨fun x => (i1 x).trans ?_, ?_, fun h => by cases h⟩
          · unfold MatchedBy
            simp only [List.mem_cons, exists_eq_or_imp, hblk.match_iff, h.match_iff, hb.match_iff, hun, or_assoc]
          · have := optimizeInner_length u (u.lo.applyMask false) rest
            exact ⟨fun _ => Nat.lt_succ_of_le this, fun _ => rfl⟩
        · obtain ⟨i1, i2, i3⟩ := ih ra vi n h
          refine ⟨fun x => ?_, ?_, ?_⟩
          · have := i1 x
            unfold MatchedBy at this ⊢
            simp only [List.mem_cons, exists_eq_or_imp] at this ⊢
            rw [or_left_comm, this, or_left_comm]
          · exact i2.trans Nat.succ_lt_succ_iff.symm
          · intro hf
            obtain ⟨j1, j2⟩ := i3 hf
            exact ⟨j1, by rw [j2]⟩

theorem outer_spec (k : Nat) (l : List Addr) (hk : l.length ≤ k) :
    (∀ x, MatchedBy (optimizeOuter l).1 x ↔ MatchedBy l x)
      ∧ (optimizeOuter l).1.length ≤ l.length
      ∧ ((optimizeOuter l).2.1 = true ↔ (optimizeOuter l).1.length < l.length)
      ∧ ((optimizeOuter l).2.1 = false → (optimizeOuter l).1 = l) := by
  induction k generalizing l with
  | zero =>
    have : l = [] := List.length_eq_zero_iff.1 (by omega)
    subst this
    simp [optimizeOuter]
  | succ k ih =>
    cases l with
    | nil => simp [optimizeOuter]
    | cons vi rest =>
      rw [optimizeOuter]
      split
      · simp
      · simp
      · rename_i ra hra
        obtain ⟨n, hblk⟩ := fromCidr_block hra
        obtain ⟨i1, i2, i3⟩ := inner_spec rest ra vi n hblk
        have i4 := optimizeInner_length ra vi rest
        split
        · rename_i vi' rest' b heq
          rw [heq] at i1 i2 i3 i4
          simp only at i1 i2 i3 i4
          simp only [List.length_cons] at hk
          obtain ⟨o1, o2, o3, o4⟩ := ih rest' (by omega)
          refine ⟨fun x => ?_, ?_, ?_, ?_⟩
          · rw [← i1 x]
            have := o1 x
            unfold MatchedBy at this ⊢
            simp only [List.mem_cons, exists_eq_or_imp]
            rw [this]
          · simp only [List.length_cons]; omega
          · simp only [List.length_cons, Bool.or_eq_true]
            rw [i2, o3]; omega
          · simp only [Bool.or_eq_false_iff]
            rintro ⟨j1, j2⟩
            rw [o4 j2, (i3 j1).1, (i3 j1).2]
        · rename_i vi' rest' b e _ heq
          rw [heq] at i1 i2 i3 i4
          simp only at i1 i2 i3 i4
          refine ⟨i1, by simpa using i4, by simpa using i2, fun hf => ?_⟩
          simp only at hf
          rw [(i3 hf).1, (i3 hf).2]

theorem optimizeVector_fst (v : List Addr) : (optimizeVector v).1 = (optimizeOuter v).1 := by
  unfold optimizeVector; split <;> simp_all

/-- C33: whatever the masks and whether the function returns or throws, the vector matches exactly the addresses it matched
before and has not grown. -/
theorem C33_coverage (v : List Addr) (x : Addr) :
    (MatchedBy (optimizeVector v).1 x ↔ MatchedBy v x) ∧ (optimizeVector v).1.length ≤ v.length := by
  obtain ⟨h1, h2, _⟩ := outer_spec v.length v (Nat.le_refl _)
  rw [optimizeVector_fst]
  exact ⟨h1 x, h2⟩

/-- C33: the returned value tells whether the vector shrank, and it is unchanged otherwise. -/
theorem C33_result (v : List Addr) (b : Bool) (h : (optimizeVector v).2 = .ok b) :
    (b = true ↔ (optimizeVector v).1.length < v.length) ∧ (b = false → (optimizeVector v).1 = v) := by
  obtain ⟨_, _, h3, h4⟩ := outer_spec v.length v (Nat.le_refl _)
  have e : (optimizeOuter v).2.1 = b := by
    unfold optimizeVector at h
    split at h <;> simp_all
  rw [optimizeVector_fst, ← e]
  exact ⟨h3, h4⟩

/-- The CIDR `w.x.y.z/n`, for the examples. -/
def sampleCidr (w x y z : Byte) (n : Nat) : Addr := { sampleV4 w x y z with mask := prefixBytes (96 + n), maskDefined := true }

example : optimizeVector [sampleCidr 10 0 1 0 24, sampleCidr 10 2 0 0 16, sampleCidr 10 0 0 0 16]
    = ([sampleCidr 10 0 0 0 16, sampleCidr 10 2 0 0 16], .ok true) := by decide +kernel

/-! ## C34 -/

/-- First address of the block of a CIDR. -/
def cidrFirst (a : Addr) : Nat := blockFirst (ip a.getIpv6.addr) a.getMaskSize.toNat

/-- Last address of the block of a CIDR. -/
def cidrLast (a : Addr) : Nat := blockLast (ip a.getIpv6.addr) a.getMaskSize.toNat

/-- Every entry has a mask made of ones followed by zeros. -/
def AllCidr (v : List Addr) : Prop := ∀ a ∈ v, 0 ≤ a.getMaskSize

/-- Two blocks could be written as one. -/
def Mergeable (a b : Addr) : Prop :=
  ∃ m, m ≤ 128 ∧ ∃ f l, isBlock f l m
    ∧ ∀ x, between x f l ↔ between x (cidrFirst a) (cidrLast a) ∨ between x (cidrFirst b) (cidrLast b)

/-- C34, full statement. -/
def C34_claim : Prop := ∀ v : List Addr, AllCidr v →
  ∃ v' b, optimizeVector v = (v', .ok b) ∧ v'.Pairwise (fun a b => ¬ Mergeable a b)

/-- The CIDR `::/80`. -/
def sampleZero80 : Addr := { Addr.default with mask := prefixBytes 80, maskDefined := true }

/-- C34 does not hold as stated: two entries `::/80` make the function throw. -/
theorem C34_claim_fails : ¬ C34_claim := by
  intro h
  obtain ⟨v', b, h1, _⟩ := h [sampleZero80, sampleZero80] (by unfold AllCidr; decide +kernel)
  have : (optimizeVector [sampleZero80, sampleZero80]).2 = .throw .outOfRange := by decide +kernel
  rw [h1] at this
  cases this

/-- C34: two valid blocks next to each other make the function throw as well: `255.0.0.0/8` and `::1:0:0:0/80`. -/
theorem C34_neighbours_throw :
    (optimizeVector [sampleCidr 255 0 0 0 8,
      { sampleAddr #v[0, 0, 0, 0, 0, 0, 0, 0, 0, 1, 0, 0, 0, 0, 0, 0] with mask := prefixBytes 80, maskDefined := true }]).2
      = .throw .outOfRange := by decide +kernel

/-- C34: the two halves of a block are left as they are, so the result is not minimal. -/
theorem C34_halves_not_merged :
    optimizeVector [sampleCidr 10 0 0 0 24, sampleCidr 10 0 1 0 24]
      = ([sampleCidr 10 0 0 0 24, sampleCidr 10 0 1 0 24], .ok false)
    ∧ Mergeable (sampleCidr 10 0 0 0 24) (sampleCidr 10 0 1 0 24) := by
  constructor
  · decide +kernel
  · refine ⟨9, by decide, 0xffff0a000000, 0xffff0a0001ff, ⟨0xffff0a000000 / 2 ^ 9, by decide, by decide⟩, fun x => ?_⟩
    have e1 : cidrFirst (sampleCidr 10 0 0 0 24) = 0xffff0a000000 := by decide +kernel
    have e2 : cidrLast (sampleCidr 10 0 0 0 24) = 0xffff0a0000ff := by decide +kernel
    have e3 : cidrFirst (sampleCidr 10 0 1 0 24) = 0xffff0a000100 := by decide +kernel
    have e4 : cidrLast (sampleCidr 10 0 1 0 24) = 0xffff0a0001ff := by decide +kernel
    rw [e1, e2, e3, e4]
    unfold between; omega

/-- C34: one pass may even leave a block within another one. -/
theorem C34_nested_left :
    optimizeVector [sampleCidr 10 0 0 0 24, sampleCidr 10 0 1 0 24, sampleCidr 10 0 0 0 16]
      = ([sampleCidr 10 0 0 0 16, sampleCidr 10 0 1 0 24], .ok true) := by decide +kernel

/-- One block lies within the other one. -/
def Nested (a b : Addr) : Prop :=
  (cidrFirst a ≤ cidrFirst b ∧ cidrLast b ≤ cidrLast a) ∨ (cidrFirst b ≤ cidrFirst a ∧ cidrLast a ≤ cidrLast b)

theorem IsBlockOf.cidr {r : Range} {a : Addr} {n : Nat} (h : IsBlockOf r a n) :
    Verif.first r = cidrFirst a ∧ Verif.last r = cidrLast a := by
  rw [first_of_complete h.complete, last_of_complete h.complete, h.first, h.last]
  unfold cidrFirst cidrLast
  rw [h.size]
  exact ⟨rfl, rfl⟩

/-- Bounds of a block in terms of its size. -/
theorem block_last_eq (v n : Nat) : blockLast v n = blockFirst v n + (2 ^ (128 - n) - 1) := rfl

/-- The union of two blocks, one of which lies within the other, passes the test. -/
theorem nested_merges {ra rb u : Range} {a b : Addr} {n m : Nat} (ha : IsBlockOf ra a n) (hb : IsBlockOf rb b m)
    (hu : ra.unionIfPossible rb = .ok u) (hn : Nested a b) : mergeTest u = true := by
  have hda : Defined ra := .inl ha.complete.1
  obtain ⟨c1, c2, c3⟩ := union_cases ra rb hda
  have la := ha.first_le_last
  have lb := hb.first_le_last
  unfold Nested at hn
  rw [← ha.cidr.1, ← ha.cidr.2, ← hb.cidr.1, ← hb.cidr.2] at hn
  have hmeet : (first ra ≤ last rb ∧ first rb ≤ last ra) ∨ last rb + 1 = first ra ∨ first rb = last ra + 1 := by omega
  by_cases hm : UnionMasksAccepted ra rb
  · obtain ⟨u', e, hd, f, l, s, k⟩ := c3 hmeet hm
    obtain ⟨k1, k2⟩ := k (.inl ha.complete)
    obtain rfl : u' = u := by rw [e] at hu; cases hu; rfl
    have hle : min n m ≤ 128 := by have := ha.le; omega
    have hs : u'.lo.getMaskSize = (min n m : Nat) := by
      rw [s, ha.loSize, hb.loSize]; omega
    have hmask : ip u'.lo.mask = prefixMask (min n m) := (C09_mask_size_iff u'.lo _ hle).1 hs
    rw [first_of_complete k1, first_of_complete ha.complete, first_of_complete hb.complete] at f
    rw [last_of_complete k1, last_of_complete ha.complete, last_of_complete hb.complete] at l
    rw [first_of_complete ha.complete, first_of_complete hb.complete, last_of_complete ha.complete,
      last_of_complete hb.complete] at hn
    have fa := ha.first
    have fb := hb.first
    have ta := ha.last
    have tb := hb.last
    rw [block_last_eq, ← fa] at ta
    rw [block_last_eq, ← fb] at tb
    have hpa : 0 < 2 ^ (128 - n) := Nat.pow_pos (by decide)
    have hpb : 0 < 2 ^ (128 - m) := Nat.pow_pos (by decide)
    have key : fromIp u' = blockFirst (fromIp u') (min n m) ∧ toIp u' = blockLast (fromIp u') (min n m) := by
      rw [block_last_eq]
      rcases hn with ⟨h1, h2⟩ | ⟨h1, h2⟩
      · have hsz : 2 ^ (128 - m) ≤ 2 ^ (128 - n) := by omega
        have hnm : 128 - m ≤ 128 - n := (Nat.pow_le_pow_iff_right (by decide)).1 hsz
        have emin : 128 - min n m = 128 - n := by omega
        have ef : fromIp u' = fromIp ra := by omega
        have eb : blockFirst (fromIp u') (min n m) = fromIp u' := by
          unfold blockFirst
          rw [emin, ef, fa]
          exact blockFirst_idem _ _
        rw [eb, emin]
        omega
      · have hsz : 2 ^ (128 - n) ≤ 2 ^ (128 - m) := by omega
        have hnm : 128 - n ≤ 128 - m := (Nat.pow_le_pow_iff_right (by decide)).1 hsz
        have emin : 128 - min n m = 128 - m := by omega
        have ef : fromIp u' = fromIp rb := by omega
        have eb : blockFirst (fromIp u') (min n m) = fromIp u' := by
          unfold blockFirst
          rw [emin, ef, fb]
          exact blockFirst_idem _ _
        rw [eb, emin]
        omega
    unfold mergeTest
    rw [Bool.and_eq_true, Bool.and_eq_true, defined_isDefined, eq_ip, eq_ip, decide_eq_true_iff, decide_eq_true_iff,
      ip_applyMask_false hle hmask, ip_applyMask_true hle hmask]
    exact ⟨hd, key.1.symm, key.2.symm⟩
  · rw [c2 hmeet hm] at hu; cases hu

theorem inner_fix (l : List Addr) (ra : Range) (vi : Addr) (n : Nat) (h : IsBlockOf ra vi n)
    (hb : (optimizeInner ra vi l).2.2.1 = false) (ho : (optimizeInner ra vi l).2.2.2 = .ok ()) :
    ∀ b ∈ l, ¬ Nested vi b := by
  induction l with
  | nil => intro b hb; cases hb
  | cons vj rest ih =>
    rw [optimizeInner] at hb ho
    split at hb
    · rename_i e he
      simp only [he] at ho; cases ho
    · rename_i e he
      simp only [he] at ho; cases ho
    · rename_i rb hrb
      simp only [hrb] at ho
      split at hb
      · rename_i e he
        simp only [he] at ho; cases ho
      · rename_i e he
        simp only [he] at ho; cases ho
      · rename_i u hu
        simp only [hu] at ho
        obtain ⟨m, hblk⟩ := fromCidr_block hrb
        dsimp only at hb
        by_cases ht : mergeTest u = true
        · unfold mergeTest at ht
          rw [if_pos ht] at hb
          cases hb
        · have ht' := ht
          unfold mergeTest at ht'
          rw [if_neg ht'] at hb
          rw [if_neg ht'] at ho
          intro b hmem
          rcases List.mem_cons.1 hmem with rfl | hmem
          · exact fun hn => ht (nested_merges h hblk hu hn)
          · exact ih hb ho b hmem

theorem outer_cons_ok {vi vi' : Addr} {rest rest' : List Addr} {ra : Range} {b : Bool} (h1 : Range.fromCidr vi = .ok ra)
    (h2 : optimizeInner ra vi rest = (vi', rest', b, .ok ())) :
    optimizeOuter (vi :: rest)
      = (vi' :: (optimizeOuter rest').1, b || (optimizeOuter rest').2.1, (optimizeOuter rest').2.2) := by
  rw [optimizeOuter]
  split
  · simp_all
  · simp_all
  · rename_i ra' hra'
    rw [h1] at hra'
    cases hra'
    split
    · rename_i heq
      rw [h2] at heq
      cases heq
      rfl
    · rename_i hne heq
      rw [h2] at heq
      cases heq
      exact absurd rfl hne

theorem outer_cons_stop {vi vi' : Addr} {rest rest' : List Addr} {ra : Range} {b : Bool} {e : Res Unit}
    (h1 : Range.fromCidr vi = .ok ra) (h2 : optimizeInner ra vi rest = (vi', rest', b, e)) (he : e ≠ .ok ()) :
    optimizeOuter (vi :: rest) = (vi' :: rest', b, e) := by
  rw [optimizeOuter]
  split
  · simp_all
  · simp_all
  · rename_i ra' hra'
    rw [h1] at hra'
    cases hra'
    split
    · rename_i heq
      rw [h2] at heq
      cases heq
      exact absurd rfl he
    · rename_i hne heq
      rw [h2] at heq
      cases heq
      rfl

theorem outer_fix (l : List Addr) (hb : (optimizeOuter l).2.1 = false) (ho : (optimizeOuter l).2.2 = .ok ()) :
    l.Pairwise (fun a b => ¬ Nested a b) := by
  induction l with
  | nil => exact List.Pairwise.nil
  | cons vi rest ih =>
    cases hra : Range.fromCidr vi with
    | throw e => rw [optimizeOuter, hra] at ho; cases ho
    | ub w => rw [optimizeOuter, hra] at ho; cases ho
    | ok ra =>
      obtain ⟨n, hblk⟩ := fromCidr_block hra
      have i3 := (inner_spec rest ra vi n hblk).2.2
      have i5 := inner_fix rest ra vi n hblk
      obtain ⟨vi', rest', b, e, hin⟩ : ∃ vi' rest' b e, optimizeInner ra vi rest = (vi', rest', b, e) := ⟨_, _, _, _, rfl⟩
      rw [hin] at i3 i5
      simp only at i3 i5
      by_cases he : e = .ok ()
      · subst he
        rw [outer_cons_ok hra hin] at hb ho
        simp only [Bool.or_eq_false_iff] at hb ho
        obtain ⟨j1, j2⟩ := i3 hb.1
        rw [j2] at hb ho
        exact List.pairwise_cons.2 ⟨i5 hb.1 rfl, ih hb.2 ho⟩
      · rw [outer_cons_stop hra hin he] at ho
        exact absurd ho he

theorem optimizeVector_snd (v : List Addr) (b : Bool) (h : (optimizeVector v).2 = .ok b) :
    (optimizeOuter v).2.1 = b ∧ (optimizeOuter v).2.2 = .ok () := by
  unfold optimizeVector at h
  split at h <;> simp_all

/-- C34, what a call which returns false guarantees: no block of the vector lies within another one. As each other call
shortens the vector (`C33_result`), calling the function until it returns false gives such a vector.
Missing from the full statement: the mergers of two halves and the calls which return true; it is false for both. -/
theorem C34_no_nested_partial (v : List Addr) (h : (optimizeVector v).2 = .ok false) :
    (optimizeVector v).1 = v ∧ v.Pairwise (fun a b => ¬ Nested a b) := by
  obtain ⟨h1, h2⟩ := optimizeVector_snd v false h
  exact ⟨(C33_result v false h).2 rfl, outer_fix v h1 h2⟩

/-- The bounds of the blocks are all IPv4 addresses with an IPv4 mask, or are all IPv6 addresses. -/
def OneFamily (v : List Addr) : Prop :=
  (∀ a ∈ v, 96 ≤ a.getMaskSize ∧ isV4 (cidrFirst a) ∧ isV4 (cidrLast a))
    ∨ (∀ a ∈ v, 0 ≤ a.getMaskSize ∧ ¬ isV4 (cidrFirst a) ∧ ¬ isV4 (cidrLast a))

/-- The family of one address, `four` telling which one. -/
def OfFamily (four : Bool) (a : Addr) : Prop :=
  if four then 96 ≤ a.getMaskSize ∧ isV4 (cidrFirst a) ∧ isV4 (cidrLast a)
  else 0 ≤ a.getMaskSize ∧ ¬ isV4 (cidrFirst a) ∧ ¬ isV4 (cidrLast a)

theorem union_same_family {four : Bool} {ra rb : Range} {a b : Addr} {n m : Nat} (ha : IsBlockOf ra a n)
    (hb : IsBlockOf rb b m) (fa : OfFamily four a) (fb : OfFamily four b) :
    ∃ u, ra.unionIfPossible rb = .ok u
      ∧ (mergeTest u = true → OfFamily four (u.lo.applyMask false)) := by
  have hda : Defined ra := .inl ha.complete.1
  obtain ⟨c1, c2, c3⟩ := union_cases ra rb hda
  have hacc : UnionMasksAccepted ra rb := by
    unfold UnionMasksAccepted MaskCountAccepted
    rw [ha.cidr.1, ha.cidr.2, hb.cidr.1, hb.cidr.2, ha.loSize, hb.loSize, ha.hiSize, hb.hiSize]
    have la := ha.le
    have lb := hb.le
    unfold OfFamily at fa fb
    rw [ha.size] at fa
    rw [hb.size] at fb
    cases four
    · simp only [Bool.false_eq_true, ↓reduceIte] at fa fb
      have h1 : ¬ isV4 (min (cidrFirst a) (cidrFirst b)) := by
        rcases Nat.le_total (cidrFirst a) (cidrFirst b) with h | h
        · rw [Nat.min_eq_left h]; exact fa.2.1
        · rw [Nat.min_eq_right h]; exact fb.2.1
      have h2 : ¬ isV4 (max (cidrLast a) (cidrLast b)) := by
        rcases Nat.le_total (cidrLast a) (cidrLast b) with h | h
        · rw [Nat.max_eq_right h]; exact fb.2.2
        · rw [Nat.max_eq_left h]; exact fa.2.2
      rw [if_neg h1, if_neg h2]
      omega
    · simp only [↓reduceIte] at fa fb
      constructor <;> (split <;> omega)
  by_cases hmeet : (first ra ≤ last rb ∧ first rb ≤ last ra) ∨ last rb + 1 = first ra ∨ first rb = last ra + 1
  · obtain ⟨u, e, _, f, l, s, _⟩ := c3 hmeet hacc
    refine ⟨u, e, fun ht => ?_⟩
    obtain ⟨hblk, _⟩ := merge_block ha hb e ht
    unfold OfFamily at fa fb ⊢
    rw [← hblk.cidr.1, ← hblk.cidr.2, f, l, ha.cidr.1, ha.cidr.2, hb.cidr.1, hb.cidr.2, hblk.size]
    rw [ha.size] at fa
    rw [hb.size] at fb
    rcases Nat.le_total (cidrFirst a) (cidrFirst b) with h | h <;>
      rcases Nat.le_total (cidrLast a) (cidrLast b) with h' | h' <;>
      simp only [Nat.min_eq_left, Nat.min_eq_right, Nat.max_eq_left, Nat.max_eq_right, h, h'] <;>
      cases four <;> simp only [Bool.false_eq_true, ↓reduceIte] at fa fb ⊢ <;>
      refine ⟨by omega, ?_, ?_⟩ <;> first | exact fa.2.1 | exact fb.2.1 | exact fa.2.2 | exact fb.2.2
  · refine ⟨_, c1 hmeet, fun ht => ?_⟩
    exact absurd ht (by decide)

theorem fromCidr_ok {a : Addr} (h : 0 ≤ a.getMaskSize) : ∃ r, Range.fromCidr a = .ok r :=
  ⟨_, by rw [Range.fromCidr, if_neg (by omega)]⟩

theorem OfFamily.nonneg {four : Bool} {a : Addr} (h : OfFamily four a) : 0 ≤ a.getMaskSize := by
  unfold OfFamily at h
  cases four
  · simp only [Bool.false_eq_true, ↓reduceIte] at h; exact h.1
  · simp only [↓reduceIte] at h; omega

theorem inner_total (four : Bool) (l : List Addr) (ra : Range) (vi : Addr) (n : Nat) (h : IsBlockOf ra vi n)
    (hf : OfFamily four vi) (hl : ∀ a ∈ l, OfFamily four a) :
    (optimizeInner ra vi l).2.2.2 = .ok () ∧ ∀ a ∈ (optimizeInner ra vi l).2.1, OfFamily four a := by
  induction l generalizing ra vi n with
  | nil => exact ⟨rfl, fun a ha => by cases ha⟩
  | cons vj rest ih =>
    have hj := hl vj (List.mem_cons_self ..)
    have hr := fun a ha => hl a (List.mem_cons_of_mem _ ha)
    obtain ⟨rb, hrb⟩ := fromCidr_ok hj.nonneg
    obtain ⟨m, hblk⟩ := fromCidr_block hrb
    obtain ⟨u, hu, hfam⟩ := union_same_family h hblk hf hj
    by_cases ht : mergeTest u = true
    · obtain ⟨hb', _⟩ := merge_block h hblk hu ht
      have := ih u (u.lo.applyMask false) _ hb' (hfam ht) hr
      unfold mergeTest at ht
      simp only [optimizeInner, hrb, hu, if_pos ht]
      exact this
    · obtain ⟨i1, i2⟩ := ih ra vi n h hf hr
      unfold mergeTest at ht
      simp only [optimizeInner, hrb, hu, if_neg ht]
      refine ⟨i1, fun a ha => ?_⟩
      rcases List.mem_cons.1 ha with rfl | ha
      · exact hj
      · exact i2 a ha

theorem outer_total (four : Bool) (k : Nat) (l : List Addr) (hk : l.length ≤ k) (hl : ∀ a ∈ l, OfFamily four a) :
    (optimizeOuter l).2.2 = .ok () := by
  induction k generalizing l with
  | zero =>
    have : l = [] := List.length_eq_zero_iff.1 (by omega)
    subst this
    simp [optimizeOuter]
  | succ k ih =>
    cases l with
    | nil => simp [optimizeOuter]
    | cons vi rest =>
      have hi := hl vi (List.mem_cons_self ..)
      obtain ⟨ra, hra⟩ := fromCidr_ok hi.nonneg
      obtain ⟨n, hblk⟩ := fromCidr_block hra
      obtain ⟨t1, t2⟩ := inner_total four rest ra vi n hblk hi (fun a ha => hl a (List.mem_cons_of_mem _ ha))
      have i4 := optimizeInner_length ra vi rest
      obtain ⟨vi', rest', b, e, hin⟩ : ∃ vi' rest' b e, optimizeInner ra vi rest = (vi', rest', b, e) := ⟨_, _, _, _, rfl⟩
      rw [hin] at t1 t2 i4
      simp only at t1 t2 i4
      subst t1
      rw [outer_cons_ok hra hin]
      simp only [List.length_cons] at hk
      exact ih rest' (by omega) t2

/-- C34, when the function does not fail: the blocks are all IPv4 ones or all IPv6 ones.
Missing from the full statement: the mixtures and the blocks with one bound in each family; it is false for some. -/
theorem C34_never_fails_partial (v : List Addr) (h : OneFamily v) : ∃ b, (optimizeVector v).2 = .ok b := by
  have : (optimizeOuter v).2.2 = .ok () := by
    rcases h with h | h
    · exact outer_total true v.length v (Nat.le_refl _) h
    · exact outer_total false v.length v (Nat.le_refl _) h
  refine ⟨(optimizeOuter v).2.1, ?_⟩
  unfold optimizeVector
  split <;> simp_all

example : OneFamily [sampleCidr 10 0 0 0 24, sampleCidr 10 0 1 0 24, sampleCidr 10 0 0 0 16] := by
  left; intro a ha
  simp only [List.mem_cons, List.not_mem_nil, or_false] at ha
  rcases ha with rfl | rfl | rfl <;> decide +kernel

example : (optimizeVector [sampleCidr 10 0 0 0 24, sampleCidr 10 0 1 0 24]).2 = .ok false := by decide +kernel

end Verif
