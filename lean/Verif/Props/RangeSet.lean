import Verif.SpecRange
import Verif.Lemmas.Range

/-!
# Properties C24–C30 and C35: ranges as sets of addresses
-/

namespace Verif

open Spec

/-- Both bounds are set. -/
def Complete (r : Range) : Prop := r.hasFrom = true ∧ r.hasTo = true

/-- At least one bound is set. -/
def Defined (r : Range) : Prop := r.hasFrom = true ∨ r.hasTo = true

instance (r : Range) : Decidable (Complete r) := inferInstanceAs (Decidable (_ ∧ _))
instance (r : Range) : Decidable (Defined r) := inferInstanceAs (Decidable (_ ∨ _))

/-- The number of the address `get_from()`. -/
def fromIp (r : Range) : Nat := ip r.lo.getIpv6.addr

/-- The number of the address `get_to()`. -/
def toIp (r : Range) : Nat := ip r.hi.getIpv6.addr

/-- First address of a defined range: a range with one bound stands for that one address. -/
def first (r : Range) : Nat := if r.hasFrom then fromIp r else toIp r

/-- Last address of a defined range. -/
def last (r : Range) : Nat := if r.hasTo then toIp r else fromIp r

/-- A complete range, for the examples. -/
def sampleRange (a b : Addr) : Range := { hasFrom := true, hasTo := true, lo := a, hi := b }

theorem complete_isRange (r : Range) : r.isRange = true ↔ Complete r := by simp [Range.isRange, Complete]

theorem defined_isDefined (r : Range) : r.isDefined = true ↔ Defined r := by simp [Range.isDefined, Defined]

theorem isEmpty_iff (r : Range) : r.isEmpty = true ↔ Complete r ∧ toIp r < fromIp r := by
  rw [isEmpty_ip, decide_eq_true_iff, complete_isRange]; rfl

/-! ## C24 -/

/-- C24: a complete range matches exactly the addresses between its bounds. -/
theorem C24_match_complete (r : Range) (a : Addr) (h : Complete r) :
    ∃ b, r.matchAddr a = .ok b ∧ (b = true ↔ between (ip a.getIpv6.addr) (fromIp r) (toIp r)) := by
  have hr := (complete_isRange r).2 h
  by_cases he : r.isEmpty = true
  · refine ⟨false, by rw [Range.matchAddr, if_pos he], ?_⟩
    have := ((isEmpty_iff r).1 he).2
    unfold between
    simp; omega
  · refine ⟨decide (between (ip a.getIpv6.addr) (fromIp r) (toIp r)), ?_, by simp⟩
    have hle : Addr.le r.lo r.hi = true := by
      rw [le_ip, decide_eq_true_iff]
      exact Nat.le_of_not_lt fun h' => he ((isEmpty_iff r).2 ⟨h, h'⟩)
    rw [Range.matchAddr, if_neg he, if_pos hr, Range.isIn, if_neg (by simp [hr]), if_pos hle, ge_ip, le_ip]
    exact congrArg Res.ok (by rw [Bool.eq_iff_iff]; simp only [Bool.and_eq_true, decide_eq_true_iff]; exact Iff.rfl)

/-- C24: an empty range (`is_empty()` says so exactly when the bounds are in the wrong order) matches nothing. -/
theorem C24_match_empty (r : Range) (a : Addr) :
    (r.isEmpty = true ↔ Complete r ∧ ∀ v, ¬ between v (fromIp r) (toIp r))
      ∧ (r.isEmpty = true → r.matchAddr a = .ok false) := by
  refine ⟨?_, fun h => by rw [Range.matchAddr, if_pos h]⟩
  rw [isEmpty_iff]
  unfold between
  constructor
  · rintro ⟨h1, h2⟩; exact ⟨h1, fun v hv => by omega⟩
  · rintro ⟨h1, h2⟩
    exact ⟨h1, Nat.lt_of_not_le fun h => h2 _ ⟨Nat.le_refl _, h⟩⟩

/-- C24: `is_in()` throws exactly for incomplete ranges, otherwise it is membership in the interval. -/
theorem C24_is_in (r : Range) (a : Addr) :
    (¬ Complete r → r.isIn a = .throw .invalidState)
      ∧ (Complete r → ∃ b, r.isIn a = .ok b ∧ (b = true ↔ between (ip a.getIpv6.addr) (fromIp r) (toIp r))) := by
  constructor
  · intro h
    rw [Range.isIn, if_pos]
    rw [Bool.not_eq_true', ← Bool.not_eq_true, complete_isRange]; exact h
  · intro h
    have hr := (complete_isRange r).2 h
    refine ⟨decide (between (ip a.getIpv6.addr) (fromIp r) (toIp r)), ?_, by simp⟩
    rw [Range.isIn, if_neg (by simp [hr]), ge_ip, le_ip, le_ip]
    change (if decide (fromIp r ≤ toIp r) = true then _ else _) = _
    split <;> rename_i h
    · exact congrArg Res.ok (by rw [Bool.eq_iff_iff]; simp only [Bool.and_eq_true, decide_eq_true_iff]; exact Iff.rfl)
    · simp only [decide_eq_true_eq] at h
      refine congrArg Res.ok (Eq.symm ?_)
      rw [decide_eq_false_iff_not]
      unfold between
      omega

/-- C24: a range with one bound matches what that address matches, bit for bit under its mask. -/
theorem C24_match_single (r : Range) (a : Addr) :
    (r.hasFrom = true → r.hasTo = false → ∃ b, r.matchAddr a = .ok b ∧ (b = true ↔
        ∀ i, i < 128 → (ip r.lo.getMask).testBit i = true → (fromIp r).testBit i = (ip a.getIpv6.addr).testBit i))
      ∧ (r.hasFrom = false → r.hasTo = true → ∃ b, r.matchAddr a = .ok b ∧ (b = true ↔
        ∀ i, i < 128 → (ip r.hi.getMask).testBit i = true → (toIp r).testBit i = (ip a.getIpv6.addr).testBit i)) := by
  constructor
  · intro h1 h2
    exact ⟨_, by simp [Range.matchAddr, Range.isEmpty, Range.isRange, h1, h2], C11_match_bits r.lo a⟩
  · intro h1 h2
    exact ⟨_, by simp [Range.matchAddr, Range.isEmpty, Range.isRange, h1, h2], C11_match_bits r.hi a⟩

example : Complete (sampleRange (sampleV4 10 0 0 5) (sampleV4 10 0 1 2))
    ∧ between (ip (sampleV4 10 0 0 200).getIpv6.addr) (fromIp (sampleRange (sampleV4 10 0 0 5) (sampleV4 10 0 1 2)))
        (toIp (sampleRange (sampleV4 10 0 0 5) (sampleV4 10 0 1 2)))
    ∧ (sampleRange (sampleV4 10 0 0 5) (sampleV4 10 0 0 4)).isEmpty = true := by decide

/-- C24, full statement about ranges without any bound: they match nothing. -/
def C24_undefined_claim : Prop := ∀ (r : Range) (a : Addr), ¬ Defined r → r.matchAddr a = .ok false

/-- C24 does not hold as stated: the range without bounds matches the address `::`. -/
theorem C24_undefined_claim_fails : ¬ C24_undefined_claim := by
  intro h
  have := h Range.default Addr.default (by decide)
  revert this
  decide +kernel

/-- C24, what does hold for a range without any bound: it behaves as the (unset) `get_to()` address does. Missing from the
full statement: "matches nothing", which is false. -/
theorem C24_undefined_partial (r : Range) (a : Addr) (h : ¬ Defined r) : r.matchAddr a = .ok (r.hi.matchAddr a) := by
  simp only [Defined, not_or, Bool.not_eq_true] at h
  simp [Range.matchAddr, Range.isEmpty, Range.isRange, h.1, h.2]

/-! ## C25 -/

/-- C25, full statement. -/
def C25_claim : Prop := ∀ r : Range, Complete r → r.size = .ok (min (count (fromIp r) (toIp r)) (2 ^ 64 - 1))

/-- C25: what `size()` gives for every complete range. With `d` the distance brought to the signed 128 bit range, the
addition of one overflows for the largest `d`; otherwise the result is `d + 1` modulo `2^128` cut to `SIZE_MAX`. -/
theorem size_complete (r : Range) (h : Complete r) :
    let d := ((toIp r : Int) - fromIp r).bmod (2 ^ 128)
    r.size = if d = 2 ^ 127 - 1 then .ub .signedOverflow else .ok (min ((d + 1) % 2 ^ 128).toNat (2 ^ 64 - 1)) := by
  have hd : Addr.diff r.hi r.lo = ((toIp r : Int) - fromIp r).bmod (2 ^ 128) := by
    unfold Addr.diff
    rw [BitVec.toInt_sub, BitVec.toInt_eq_toNat_bmod, BitVec.toInt_eq_toNat_bmod, ipToUint128_toNat, ipToUint128_toNat]
    rw [← Int.sub_bmod]; rfl
  unfold Range.size
  rw [if_pos (by simp [h.1, h.2]), hd]
  simp only [Range.sizeMax]
  split <;> rename_i hh
  · rfl
  · rw [BitVec.toNat_ofInt]; rfl

theorem bmod_cases (x y : Nat) (hx : x < 2 ^ 128) (hy : y < 2 ^ 128) :
    let d := ((y : Int) - x).bmod (2 ^ 128)
    (d + 1) % 2 ^ 128 = ((y : Int) - x + 1) % 2 ^ 128 ∧ (d = 2 ^ 127 - 1 ↔ y + 1 = x + 2 ^ 127 ∨ x = y + 2 ^ 127 + 1) := by
  simp only [Int.bmod]
  split <;> (constructor <;> omega)

/-- C25, exactly when the full statement holds: the range is not empty (or ends right before it starts), holds neither
`2^127` nor all the addresses. Missing from the full statement: the other ranges, for which it is false. -/
theorem C25_size_partial (r : Range) (h : Complete r) :
    (r.size = .ok (min (count (fromIp r) (toIp r)) (2 ^ 64 - 1))
      ↔ fromIp r ≤ toIp r + 1 ∧ count (fromIp r) (toIp r) ≠ 2 ^ 127 ∧ count (fromIp r) (toIp r) ≠ 2 ^ 128) := by
  have hx : fromIp r < 2 ^ 128 := ip_lt _
  have hy : toIp r < 2 ^ 128 := ip_lt _
  rw [size_complete r h]
  obtain ⟨h1, h2⟩ := bmod_cases (fromIp r) (toIp r) hx hy
  generalize fromIp r = x at *
  generalize toIp r = y at *
  generalize ((y : Int) - x).bmod (2 ^ 128) = d at *
  unfold count
  simp only [h1]
  by_cases hd : d = 2 ^ 127 - 1
  · rw [if_pos hd]
    constructor
    · intro h; cases h
    · have := h2.1 hd; omega
  · rw [if_neg hd]
    have h3 : ¬ (y + 1 = x + 2 ^ 127 ∨ x = y + 2 ^ 127 + 1) := fun h => hd (h2.2 h)
    simp only [Res.ok.injEq]
    omega

/-- C25: the ranges for which `size()` is undefined behaviour: those of `2^127` addresses, and the empty ones whose bounds
are `2^127 + 1` apart. -/
theorem C25_size_undefined_iff (r : Range) (h : Complete r) :
    r.size = .ub .signedOverflow ↔ toIp r + 1 = fromIp r + 2 ^ 127 ∨ fromIp r = toIp r + 2 ^ 127 + 1 := by
  rw [size_complete r h]
  obtain ⟨h1, h2⟩ := bmod_cases (fromIp r) (toIp r) (ip_lt _) (ip_lt _)
  rw [← h2]
  split <;> rename_i hd
  · exact ⟨fun _ => hd, fun _ => rfl⟩
  · exact ⟨fun h => (by cases h), fun h => absurd h hd⟩

/-- C25: a range with one bound has size one, a range without bounds has size zero. -/
theorem C25_size_incomplete (r : Range) (h : ¬ Complete r) : r.size = .ok (if Defined r then 1 else 0) := by
  unfold Complete at h
  cases h1 : r.hasFrom <;> cases h2 : r.hasTo <;> simp_all [Range.size, Defined]

/-- The range of all the addresses, for the counterexamples. -/
def fullRange : Range := sampleRange (sampleAddr (Vector.replicate 16 0)) (sampleAddr (Vector.replicate 16 255))

/-- C25 does not hold as stated: the range of all the addresses has size zero. -/
theorem C25_claim_fails : ¬ C25_claim := by
  intro h
  have := h fullRange (by decide)
  revert this
  decide +kernel

example : (sampleRange (sampleV4 10 0 0 0) (sampleV4 10 0 1 255)).size = .ok 512
    ∧ fullRange.size = .ok 0
    ∧ (sampleRange (sampleV4 10 0 0 9) (sampleV4 10 0 0 5)).size = .ok (2 ^ 64 - 1) := by decide +kernel

/-! ## C26 -/

/-- C26, full statement. -/
def C26_claim : Prop := ∀ (r : Range) (limit : Nat), Complete r → limit ≤ 2 ^ 64 - 1 →
  (count (fromIp r) (toIp r) > limit → ∃ fuel, r.toAddresses limit fuel = some (.throw .outOfRange))
    ∧ (count (fromIp r) (toIp r) ≤ limit → ∃ fuel l, r.toAddresses limit fuel = some (.ok l)
        ∧ l.map (fun a => ip a.getIpv6.addr) = List.range' (fromIp r) (count (fromIp r) (toIp r)))

theorem ip_preInc (a : Addr) (h : ip a.bytes < 2 ^ 128 - 1) : ip a.preInc.bytes = ip a.bytes + 1 := by
  have := (C05_inc_dec a).1
  change ip a.preInc.bytes = clamp ((ip a.bytes : Int) + 1) at this
  rw [this]
  unfold clamp maxIp
  rw [if_neg (by omega), if_neg (by omega)]; omega

theorem ip_preInc_max (a : Addr) (h : ip a.bytes = 2 ^ 128 - 1) : ip a.preInc.bytes = 2 ^ 128 - 1 := by
  have := (C05_inc_dec a).1
  change ip a.preInc.bytes = clamp ((ip a.bytes : Int) + 1) at this
  rw [this]
  unfold clamp maxIp
  rw [if_neg (by omega), if_pos (by omega)]

theorem SameButIp.refl (a : Addr) : SameButIp a a := ⟨rfl, rfl, rfl, rfl, rfl, rfl, rfl, rfl, rfl, rfl, rfl⟩

theorem SameButIp.trans {a b c : Addr} (h1 : SameButIp a b) (h2 : SameButIp b c) : SameButIp a c :=
  ⟨h2.family.trans h1.family, h2.port.trans h1.port, h2.flowinfo.trans h1.flowinfo, h2.scope.trans h1.scope,
   h2.mask.trans h1.mask, h2.portDefined.trans h1.portDefined, h2.protocolDefined.trans h1.protocolDefined,
   h2.maskDefined.trans h1.maskDefined, h2.protocol.trans h1.protocol, h2.interface.trans h1.interface,
   h2.hostname.trans h1.hostname⟩

theorem addressesLoop_ok (to : Addr) (n : Nat) (a : Addr) (hn : ip a.bytes + n = ip to.bytes)
    (hmax : ip to.bytes < 2 ^ 128 - 1) (fuel : Nat) (hf : n < fuel) :
    ∃ l, Range.addressesLoop to fuel a = some l ∧ l.map (fun a => ip a.getIpv6.addr) = List.range' (ip a.bytes) (n + 1)
      ∧ ∀ b ∈ l, SameButIp a b := by
  induction n generalizing a fuel with
  | zero =>
    obtain ⟨fuel, rfl⟩ : ∃ f, fuel = f + 1 := ⟨fuel - 1, by omega⟩
    refine ⟨[a], ?_, rfl, ?_⟩
    · rw [Range.addressesLoop]
      rw [if_neg]
      rw [le_ip, ip_preInc a (by omega), decide_eq_true_iff]; omega
    · intro b hb
      rw [List.mem_singleton] at hb
      subst hb; exact SameButIp.refl _
  | succ n ih =>
    obtain ⟨fuel, rfl⟩ : ∃ f, fuel = f + 1 := ⟨fuel - 1, by omega⟩
    have hi := ip_preInc a (by omega)
    obtain ⟨l, h1, h2, h3⟩ := ih a.preInc (by omega) fuel (by omega)
    refine ⟨a :: l, ?_, ?_, ?_⟩
    · rw [Range.addressesLoop]
      rw [if_pos (by rw [le_ip, hi, decide_eq_true_iff]; omega), h1]; rfl
    · rw [List.map_cons, h2, hi, List.range'_succ]; rfl
    · intro b hb
      rcases List.mem_cons.1 hb with rfl | hb
      · exact SameButIp.refl _
      · exact (C05_inc_dec a).2.1.trans (h3 b hb)

theorem addressesLoop_max (to : Addr) (hmax : ip to.bytes = 2 ^ 128 - 1) (fuel : Nat) (a : Addr) :
    Range.addressesLoop to fuel a = none := by
  induction fuel generalizing a with
  | zero => rfl
  | succ fuel ih =>
    rw [Range.addressesLoop]
    rw [if_pos, ih]
    · rfl
    · rw [le_ip, hmax, decide_eq_true_iff]
      have := ip_lt a.preInc.bytes
      omega

/-- C26, for complete non-empty ranges which do not end with the largest address and do not hold `2^127` addresses, and
for limits below `SIZE_MAX`: the call ends, throws `out_of_range` when the range holds more than `limit` addresses and
otherwise returns each of them once in increasing order, each being `get_from()` but for the address.
Missing from the full statement: the ranges which end with the largest address, the empty ranges, the ranges of `2^127`
addresses and the limit `SIZE_MAX`; the statement is false for these. -/
theorem C26_enumerates_partial (r : Range) (limit : Nat) (h : Complete r) (hne : fromIp r ≤ toIp r)
    (hmax : toIp r < maxIp) (h127 : count (fromIp r) (toIp r) ≠ 2 ^ 127) (hl : limit < 2 ^ 64 - 1) :
    (count (fromIp r) (toIp r) > limit → ∀ fuel, r.toAddresses limit fuel = some (.throw .outOfRange))
      ∧ (count (fromIp r) (toIp r) ≤ limit → ∀ fuel, count (fromIp r) (toIp r) ≤ fuel →
          ∃ l, r.toAddresses limit fuel = some (.ok l)
            ∧ l.map (fun a => ip a.getIpv6.addr) = List.range' (fromIp r) (count (fromIp r) (toIp r))
            ∧ ∀ b ∈ l, SameButIp r.lo b) := by
  unfold maxIp at hmax
  have hs := (C25_size_partial r h).2 ⟨by omega, h127, by unfold count; omega⟩
  constructor
  · intro hc fuel
    unfold Range.toAddresses
    simp only [hs]
    rw [if_pos (by omega)]
  · intro hc fuel hf
    have hcount : count (fromIp r) (toIp r) = (toIp r - fromIp r) + 1 := by unfold count; omega
    rw [hcount] at hf ⊢
    obtain ⟨l, h1, h2, h3⟩ := addressesLoop_ok r.hi (toIp r - fromIp r) r.lo
      (by unfold fromIp toIp Addr.getIpv6 Addr.bytes at *; omega) (by unfold toIp Addr.getIpv6 at hmax; exact hmax) fuel
      (by omega)
    refine ⟨l, ?_, h2, h3⟩
    unfold Range.toAddresses
    simp only [hs]
    rw [if_neg (by omega), if_pos (by simp [h.1, h.2]), h1]; rfl

/-- C26: the ranges which end with the largest address and hold at most `limit` addresses are never enumerated: the call
does not end. -/
theorem C26_diverges (r : Range) (limit n : Nat) (h : Complete r) (hmax : toIp r = maxIp) (hs : r.size = .ok n)
    (hl : n ≤ limit) : ∀ fuel, r.toAddresses limit fuel = none := by
  intro fuel
  unfold Range.toAddresses
  simp only [hs]
  rw [if_neg (by omega), if_pos (by simp [h.1, h.2]), addressesLoop_max _ hmax]; rfl

/-- C26 does not hold as stated: the range made of the largest address alone is not enumerated. -/
theorem C26_claim_fails : ¬ C26_claim := by
  intro h
  let top := sampleAddr (Vector.replicate 16 255)
  have := (h (sampleRange top top) 10 (by decide) (by decide)).2 (by decide)
  obtain ⟨fuel, l, h1, _⟩ := this
  rw [C26_diverges (sampleRange top top) 10 1 (by decide) (by decide) (by decide +kernel) (by decide)] at h1
  cases h1

/-- C26: an empty range whose end is right before its start yields one address. -/
theorem C26_empty_yields_one (r : Range) (limit fuel : Nat) (h : Complete r) (he : fromIp r = toIp r + 1)
    (hmax : fromIp r < maxIp) : r.toAddresses limit (fuel + 1) = some (.ok [r.lo]) := by
  unfold maxIp at hmax
  have hs := (C25_size_partial r h).2 ⟨by omega, by unfold count; omega, by unfold count; omega⟩
  unfold Range.toAddresses
  simp only [hs]
  rw [if_neg (by unfold count; omega), if_pos (by simp [h.1, h.2]), Range.addressesLoop]
  rw [if_neg]
  · rfl
  · rw [le_ip, ip_preInc _ hmax, decide_eq_true_iff]
    unfold fromIp toIp Addr.getIpv6 at he
    unfold Addr.bytes; omega

/-- C26: incomplete ranges yield their only address or nothing (whatever limit is at least one). -/
theorem C26_incomplete (r : Range) (limit fuel : Nat) (h : ¬ Complete r) (hl : 1 ≤ limit) :
    r.toAddresses limit fuel
      = some (.ok (if r.hasFrom = true then [r.lo] else if r.hasTo = true then [r.hi] else [])) := by
  unfold Range.toAddresses
  have hn : ¬ (if Defined r then 1 else 0) > limit := by split <;> omega
  simp only [C25_size_incomplete r h]
  rw [if_neg hn]
  unfold Complete at h
  cases hf : r.hasFrom <;> cases ht : r.hasTo <;> simp_all

example : let r := sampleRange (sampleV4 10 0 0 254) (sampleV4 10 0 1 1)
    Complete r ∧ fromIp r ≤ toIp r ∧ toIp r < maxIp ∧ count (fromIp r) (toIp r) ≠ 2 ^ 127 ∧ count (fromIp r) (toIp r) = 4 := by
  decide

/-! ## C27 and C28 -/

theorem isBlock_iff (x y m : Nat) : isBlock x y m ↔ ∃ k, x = k * 2 ^ m ∧ y = k * 2 ^ m + (2 ^ m - 1) := by
  unfold isBlock
  have hp : 0 < 2 ^ m := Nat.pow_pos (by decide)
  constructor <;> rintro ⟨k, h1, h2⟩ <;> refine ⟨k, h1, ?_⟩ <;> rw [Nat.add_mul, Nat.one_mul] at * <;> omega

/-- An aligned block which starts with an IPv4 address lies within the IPv4 addresses. -/
theorem v4_block_small {x y m : Nat} (h : isBlock x y m) (hx : isV4 x) : m ≤ 32 := by
  rw [isV4_iff_div] at hx
  obtain ⟨k, h1, _⟩ := h
  rcases Nat.lt_or_ge 32 m with hm | hm
  · exfalso
    obtain ⟨j, rfl⟩ : ∃ j, m = j + 33 := ⟨m - 33, by omega⟩
    have : x = (k * 2 ^ j) * 2 ^ 33 := by rw [h1, Nat.pow_add, Nat.mul_assoc]
    generalize k * 2 ^ j = q at this
    omega
  · exact hm

/-- C28: `to_cidr()` never fails otherwise than by returning false, which leaves the output untouched, and it returns true
exactly for the complete ranges which are an aligned block. -/
theorem C28_to_cidr_iff (r : Range) (out : Addr) :
    ((r.toCidr out).2 = .ok true ∧ Complete r ∧ ∃ m, m ≤ 128 ∧ isBlock (fromIp r) (toIp r) m)
      ∨ (r.toCidr out = (out, .ok false) ∧ ¬ (Complete r ∧ ∃ m, m ≤ 128 ∧ isBlock (fromIp r) (toIp r) m)) := by
  unfold Range.toCidr
  by_cases hc : Complete r
  · by_cases he : r.isEmpty = true
    · right
      rw [if_pos (by simp [he])]
      refine ⟨rfl, ?_⟩
      rintro ⟨_, m, _, hb⟩
      obtain ⟨k, h1, h2⟩ := (isBlock_iff ..).1 hb
      have := ((isEmpty_iff r).1 he).2
      omega
    · rw [if_neg (by simp [he, (complete_isRange r).2 hc])]
      cases hl : Range.cidrLoop r.lo.ipToUint128 r.hi.ipToUint128 128 1 128 with
      | none =>
        right
        refine ⟨rfl, ?_⟩
        rintro ⟨_, m, hm, hb⟩
        obtain ⟨k, h1, h2⟩ := (isBlock_iff ..).1 hb
        have := (cidrLoop_block r.lo.ipToUint128 r.hi.ipToUint128 (128 - (m : Int))).2
          ⟨m, k, hm, by rw [ipToUint128_toNat]; exact h1, by rw [ipToUint128_toNat]; exact h2, rfl⟩
        rw [hl] at this; cases this
      | some d =>
        left
        obtain ⟨m, k, hm, h1, h2, rfl⟩ := (cidrLoop_block ..).1 hl
        rw [ipToUint128_toNat] at h1 h2
        have hb : isBlock (fromIp r) (toIp r) m := (isBlock_iff ..).2 ⟨k, h1, h2⟩
        refine ⟨?_, hc, m, hm, hb⟩
        have hacc : MaskCountAccepted (ip (out.ipFromUint128 r.lo.ipToUint128).getIpv6.addr) (128 - (m : Int)) := by
          rw [(C03_uint128_bijection ..).2.2, ipToUint128_toNat]
          unfold MaskCountAccepted
          split
          · rename_i hv
            have := v4_block_small hb hv
            omega
          · omega
        obtain ⟨a', h3, _⟩ := C08_mask_count_roundtrip _ _ hacc
        dsimp only
        rw [SM.bind, h3]
        rfl
  · right
    have : r.isRange = false := by rw [← Bool.not_eq_true, complete_isRange]; exact hc
    rw [if_pos (by simp [this])]
    exact ⟨rfl, fun h => hc h.1⟩

/-- C28: on success the output is the first address with the mask of the block: its own block is exactly the range, and it
keeps its other fields. -/
theorem C28_to_cidr_result (r : Range) (out : Addr) (m : Nat) (hm : m ≤ 128) (hc : Complete r)
    (hb : isBlock (fromIp r) (toIp r) m) :
    ∃ mid a', r.toCidr out = (a', .ok true) ∧ SameButIp out mid ∧ SameButMask mid a' ∧ a'.maskDefined = true
      ∧ ip a'.getIpv6.addr = fromIp r ∧ a'.getMaskSize = 128 - (m : Int) ∧ ip a'.getMask = prefixMask (128 - m)
      ∧ ∀ x : Addr, a'.matchAddr x = true ↔ between (ip x.getIpv6.addr) (fromIp r) (toIp r) := by
  obtain ⟨k, h1, h2⟩ := (isBlock_iff ..).1 hb
  have he : ¬ r.isEmpty = true := by
    intro he
    have := ((isEmpty_iff r).1 he).2
    omega
  have hl := (cidrLoop_block r.lo.ipToUint128 r.hi.ipToUint128 (128 - (m : Int))).2
    ⟨m, k, hm, by rw [ipToUint128_toNat]; exact h1, by rw [ipToUint128_toNat]; exact h2, rfl⟩
  have hip : ip (out.ipFromUint128 r.lo.ipToUint128).getIpv6.addr = fromIp r := by
    rw [(C03_uint128_bijection ..).2.2, ipToUint128_toNat]; rfl
  have hacc : MaskCountAccepted (ip (out.ipFromUint128 r.lo.ipToUint128).getIpv6.addr) (128 - (m : Int)) := by
    rw [hip]
    unfold MaskCountAccepted
    split
    · rename_i hv
      have := v4_block_small hb hv
      omega
    · omega
  obtain ⟨a', h3, h4, h5, h6, h7⟩ := C08_mask_count_roundtrip _ _ hacc
  have hip' : ip a'.getIpv6.addr = fromIp r := by
    rw [← hip]; unfold Addr.getIpv6; rw [h7.address]
  have hsz : a'.getMaskSize = ((128 - m : Nat) : Int) := by rw [h4]; omega
  refine ⟨_, a', ?_, C03_from_uint128_frame out r.lo.ipToUint128, h7, h6, hip', h4, ?_, ?_⟩
  · unfold Range.toCidr
    rw [if_neg (by simp [he, (complete_isRange r).2 hc]), hl]
    dsimp only
    rw [SM.bind, h3]; rfl
  · rw [h5]; congr 1; omega
  · intro x
    have hblk := C10_apply_mask_block a' _ hsz
    rw [C11_match_block a' x _ hsz, hblk.1, hblk.2, hip']
    unfold between blockFirst blockLast
    have e : 128 - (128 - m) = m := by omega
    have hp : 0 < 2 ^ m := Nat.pow_pos (by decide)
    rw [e, h2, h1, Nat.mul_div_cancel _ hp]

example : isBlock (fromIp (sampleRange (sampleV4 10 0 4 0) (sampleV4 10 0 7 255)))
    (toIp (sampleRange (sampleV4 10 0 4 0) (sampleV4 10 0 7 255))) 10 := ⟨0xffff0a000400 / 2 ^ 10, by decide, by decide⟩

/-- C27: `from_cidr()` throws exactly when the mask is not `n` ones followed by zeros. -/
theorem C27_from_cidr_throws_iff (a : Addr) :
    (Range.fromCidr a = .throw .unsupportedAsRange ∧ ∀ n, n ≤ 128 → ip a.getMask ≠ prefixMask n)
      ∨ (∃ r n, n ≤ 128 ∧ Range.fromCidr a = .ok r ∧ ip a.getMask = prefixMask n) := by
  rcases getMaskSize_cases a with ⟨h1, h2⟩ | ⟨k, hk, h1, h2⟩
  · exact .inl ⟨by rw [Range.fromCidr, if_pos h1], h2⟩
  · exact .inr ⟨_, k, hk, by rw [Range.fromCidr, if_neg (by omega)], h1⟩

/-- C27: the range is the block of the address (never empty), bounded by `apply_mask()` and `apply_mask(true)`, and
`to_cidr()` gives back the masked address with the same mask. -/
theorem C27_cidr_roundtrip (a out : Addr) (n : Nat) (hn : n ≤ 128) (hm : ip a.getMask = prefixMask n) :
    ∃ r a', Range.fromCidr a = .ok r ∧ Complete r ∧ r.lo = a.applyMask false ∧ r.hi = a.applyMask true
      ∧ fromIp r = blockFirst (ip a.getIpv6.addr) n ∧ toIp r = blockLast (ip a.getIpv6.addr) n ∧ r.isEmpty = false
      ∧ r.toCidr out = (a', .ok true) ∧ ip a'.getIpv6.addr = ip (a.applyMask false).getIpv6.addr
      ∧ a'.getMask = a.getMask := by
  have hs : a.getMaskSize = n := (C09_mask_size_iff a n hn).2 hm
  obtain ⟨b1, b2⟩ := C10_apply_mask_block a n hs
  let r : Range := { hasFrom := true, hasTo := true, lo := a.applyMask false, hi := a.applyMask true }
  have hc : Complete r := ⟨rfl, rfl⟩
  have f1 : fromIp r = blockFirst (ip a.getIpv6.addr) n := b1
  have t1 : toIp r = blockLast (ip a.getIpv6.addr) n := b2
  have hb : isBlock (fromIp r) (toIp r) (128 - n) := by
    rw [isBlock_iff]
    exact ⟨_, f1, t1⟩
  obtain ⟨_, a', h1, _, _, _, h2, _, h3, _⟩ := C28_to_cidr_result r out (128 - n) (by omega) hc hb
  refine ⟨r, a', by rw [Range.fromCidr, if_neg (by omega)], hc, rfl, rfl, f1, t1, ?_, h1, h2.trans (f1.trans b1.symm), ?_⟩
  · rw [← Bool.not_eq_true, isEmpty_iff]
    rintro ⟨_, h⟩
    rw [f1, t1] at h
    unfold blockFirst blockLast at h
    omega
  · apply ip_inj
    rw [h3, hm]; congr 1; omega

example : ip ((sampleV4 10 1 2 3).setMaskCount 104).1.getMask = prefixMask 104 := by decide +kernel

/-! ## C29 -/

/-- C29: the intersection of two complete ranges is complete and an address matches it exactly when it matches both; it is
empty exactly when no number is in both. -/
theorem C29_intersection (r s : Range) (hr : Complete r) (hs : Complete s) (a : Addr) :
    Complete (r.intersection s)
      ∧ (∀ v, between v (fromIp (r.intersection s)) (toIp (r.intersection s))
          ↔ between v (fromIp r) (toIp r) ∧ between v (fromIp s) (toIp s))
      ∧ ((r.intersection s).matchAddr a = .ok true ↔ r.matchAddr a = .ok true ∧ s.matchAddr a = .ok true)
      ∧ ((r.intersection s).isEmpty = true ↔ ∀ v, ¬ (between v (fromIp r) (toIp r) ∧ between v (fromIp s) (toIp s))) := by
  have hc : Complete (r.intersection s) := ⟨rfl, rfl⟩
  have hset : ∀ v, between v (fromIp (r.intersection s)) (toIp (r.intersection s))
      ↔ between v (fromIp r) (toIp r) ∧ between v (fromIp s) (toIp s) := by
    intro v
    have hlo : fromIp (r.intersection s) = max (fromIp r) (fromIp s) := by
      change ip (if Addr.gt r.lo s.lo then r.lo else s.lo).getIpv6.addr = max (ip r.lo.bytes) (ip s.lo.bytes)
      rw [gt_ip]
      split <;> rename_i h <;> simp only [decide_eq_true_eq] at h
      · change ip r.lo.bytes = _; omega
      · change ip s.lo.bytes = _; omega
    have hhi : toIp (r.intersection s) = min (toIp r) (toIp s) := by
      change ip (if Addr.lt r.hi s.hi then r.hi else s.hi).getIpv6.addr = min (ip r.hi.bytes) (ip s.hi.bytes)
      rw [lt_ip]
      split <;> rename_i h <;> simp only [decide_eq_true_eq] at h
      · change ip r.hi.bytes = _; omega
      · change ip s.hi.bytes = _; omega
    rw [hlo, hhi]
    unfold between
    omega
  refine ⟨hc, hset, ?_, ?_⟩
  · obtain ⟨b1, e1, i1⟩ := C24_match_complete _ a hc
    obtain ⟨b2, e2, i2⟩ := C24_match_complete r a hr
    obtain ⟨b3, e3, i3⟩ := C24_match_complete s a hs
    rw [e1, e2, e3, Res.ok.injEq, Res.ok.injEq, Res.ok.injEq, i1, i2, i3, hset]
  · rw [(C24_match_empty _ a).1]
    simp only [hset]
    exact ⟨fun h => h.2, fun h => ⟨hc, h⟩⟩

/-- C29: the operation is commutative and idempotent on the bounds. -/
theorem C29_intersection_comm (r s : Range) :
    fromIp (r.intersection s) = fromIp (s.intersection r) ∧ toIp (r.intersection s) = toIp (s.intersection r)
      ∧ fromIp (r.intersection r) = fromIp r ∧ toIp (r.intersection r) = toIp r := by
  have hlo : ∀ r s : Range, fromIp (r.intersection s) = max (fromIp r) (fromIp s) := by
    intro r s
    change ip (if Addr.gt r.lo s.lo then r.lo else s.lo).getIpv6.addr = max (ip r.lo.bytes) (ip s.lo.bytes)
    rw [gt_ip]
    split <;> rename_i h <;> simp only [decide_eq_true_eq] at h
    · change ip r.lo.bytes = _; omega
    · change ip s.lo.bytes = _; omega
  have hhi : ∀ r s : Range, toIp (r.intersection s) = min (toIp r) (toIp s) := by
    intro r s
    change ip (if Addr.lt r.hi s.hi then r.hi else s.hi).getIpv6.addr = min (ip r.hi.bytes) (ip s.hi.bytes)
    rw [lt_ip]
    split <;> rename_i h <;> simp only [decide_eq_true_eq] at h
    · change ip r.hi.bytes = _; omega
    · change ip s.hi.bytes = _; omega
  rw [hlo, hlo, hlo, hhi, hhi, hhi]
  omega

example : Complete (sampleRange (sampleV4 10 0 0 0) (sampleV4 10 0 0 9)) ∧ (Range.intersection
    (sampleRange (sampleV4 10 0 0 0) (sampleV4 10 0 0 9)) (sampleRange (sampleV4 10 0 0 5) (sampleV4 10 0 1 0))).size = .ok 5 := by
  decide +kernel

/-! ## C35 -/

theorem match_total (r : Range) (a : Addr) : ∃ b, r.matchAddr a = .ok b := by
  by_cases hc : Complete r
  · obtain ⟨b, h, _⟩ := C24_match_complete r a hc; exact ⟨b, h⟩
  · have hr : r.isRange = false := by rw [← Bool.not_eq_true, complete_isRange]; exact hc
    have he : r.isEmpty = false := by simp [Range.isEmpty, hr]
    unfold Range.matchAddr
    rw [if_neg (by simp [he]), if_neg (by simp [hr])]
    split <;> exact ⟨_, rfl⟩

/-- C35: `address_match_ranges()` never throws and is true exactly when one of the ranges matches; hence neither the order
nor the repetition of the ranges matters. -/
theorem C35_any_range (l : List Range) (a : Addr) :
    ∃ b, addressMatchRanges l a = .ok b ∧ (b = true ↔ ∃ r ∈ l, r.matchAddr a = .ok true) := by
  induction l with
  | nil => exact ⟨false, rfl, by simp⟩
  | cons r l ih =>
    obtain ⟨b, hb, hi⟩ := ih
    obtain ⟨c, hc⟩ := match_total r a
    cases c
    · refine ⟨b, ?_, ?_⟩
      · simp only [addressMatchRanges, hc]; exact hb
      · rw [hi]; simp [hc]
    · refine ⟨true, ?_, ?_⟩
      · simp only [addressMatchRanges, hc]
      · simp [hc]

theorem C35_order_irrelevant (l l' : List Range) (a : Addr) (h : ∀ r, r ∈ l ↔ r ∈ l') :
    addressMatchRanges l a = addressMatchRanges l' a := by
  obtain ⟨b, h1, h2⟩ := C35_any_range l a
  obtain ⟨b', h3, h4⟩ := C35_any_range l' a
  have : b = b' := by
    rw [Bool.eq_iff_iff, h2, h4]; simp only [h]
  rw [h1, h3, this]

/-- C35, for complete ranges: the address lies in one of the intervals. -/
theorem C35_intervals_partial (l : List Range) (a : Addr) (hl : ∀ r ∈ l, Complete r) :
    ∃ b, addressMatchRanges l a = .ok b
      ∧ (b = true ↔ ∃ r ∈ l, between (ip a.getIpv6.addr) (fromIp r) (toIp r)) := by
  obtain ⟨b, h1, h2⟩ := C35_any_range l a
  refine ⟨b, h1, h2.trans ?_⟩
  constructor
  · rintro ⟨r, hr, hm⟩
    obtain ⟨c, h3, h4⟩ := C24_match_complete r a (hl r hr)
    rw [h3] at hm
    exact ⟨r, hr, h4.1 (by injection hm)⟩
  · rintro ⟨r, hr, hm⟩
    obtain ⟨c, h3, h4⟩ := C24_match_complete r a (hl r hr)
    exact ⟨r, hr, by rw [h3, h4.2 hm]⟩

/-- C35, full statement for the vectors with ranges which have no bound (they hold no address). -/
def C35_claim : Prop := ∀ (l : List Range) (a : Addr), (∀ r ∈ l, Complete r ∨ ¬ Defined r) →
  (addressMatchRanges l a = .ok true ↔ ∃ r ∈ l, Complete r ∧ between (ip a.getIpv6.addr) (fromIp r) (toIp r))

/-- C35 does not hold as stated: `::` is found in a vector whose only range has no bound. -/
theorem C35_claim_fails : ¬ C35_claim := by
  intro h
  have := (h [Range.default] Addr.default (by intro r hr; rw [List.mem_singleton] at hr; subst hr; right; decide)).1
    (by decide +kernel)
  obtain ⟨r, hr, hc, _⟩ := this
  rw [List.mem_singleton] at hr
  subst hr
  exact absurd hc (by decide)

example : addressMatchRanges [sampleRange (sampleV4 10 0 0 0) (sampleV4 10 0 0 9), sampleRange (sampleV4 10 0 0 5) (sampleV4 10 0 1 0)]
    (sampleV4 10 0 0 77) = .ok true := by decide

end Verif
