import Verif.Lemmas.Mask
import Verif.Props.AddrValue

/-!
# Properties C08–C11: masks
-/

namespace Verif

open Spec

/-- Everything but the mask and its "defined" flag is the same. -/
structure SameButMask (a b : Addr) : Prop where
  address : b.address = a.address
  portDefined : b.portDefined = a.portDefined
  protocolDefined : b.protocolDefined = a.protocolDefined
  protocol : b.protocol = a.protocol
  privateNetwork : b.privateNetwork = a.privateNetwork
  interface : b.interface = a.interface
  hostname : b.hostname = a.hostname

/-! ## C08 -/

/-- The sizes accepted for an address: 0 to 128, or 96 to 128 for an IPv4 address. -/
def MaskCountAccepted (v : Nat) (n : Int) : Prop := (if isV4 v then 96 else 0) ≤ n ∧ n ≤ 128

instance (v : Nat) (n : Int) : Decidable (MaskCountAccepted v n) := inferInstanceAs (Decidable (_ ∧ _))

theorem setMaskCount_guard (a : Addr) (n : Int) :
    (n < (if a.isIpv4 = true then (96 : Int) else 0) ∨ n > 128) ↔ ¬ MaskCountAccepted (ip a.bytes) n := by
  unfold MaskCountAccepted
  have := isIpv4_iff a
  by_cases h : isV4 (ip a.bytes)
  · rw [if_pos h, if_pos (this.2 h)]; omega
  · rw [if_neg h, if_neg (fun h' => h (this.1 h'))]; omega

/-- C08: an accepted size is stored as that many one bits followed by zero bits, is read back, marks the mask as defined
and changes nothing else. -/
theorem C08_mask_count_roundtrip (a : Addr) (n : Int) (h : MaskCountAccepted (ip a.getIpv6.addr) n) :
    ∃ a', a.setMaskCount n = (a', .ok ()) ∧ a'.getMaskSize = n ∧ ip a'.getMask = prefixMask n.toNat
      ∧ a'.maskDefined = true ∧ SameButMask a a' := by
  have hg := fun h' => (setMaskCount_guard a n).1 h' h
  have hb : 0 ≤ n ∧ n ≤ 128 := by
    obtain ⟨h1, h2⟩ := h
    refine ⟨?_, h2⟩
    split at h1 <;> omega
  refine ⟨{ a with maskDefined := true, mask := prefixBytes n.toNat }, ?_, ?_, ip_prefixBytes _ (by omega), rfl,
    ⟨rfl, rfl, rfl, rfl, rfl, rfl, rfl⟩⟩
  · simp only [Addr.setMaskCount]
    rw [if_neg hg]; rfl
  · rcases getMaskSize_cases { a with maskDefined := true, mask := prefixBytes n.toNat } with ⟨_, h2⟩ | ⟨k, hk, h1, h2⟩
    · exact absurd (ip_prefixBytes n.toNat (by omega)) (h2 n.toNat (by omega))
    · rw [h2]
      have := prefixMask_inj (by omega) hk ((ip_prefixBytes n.toNat (by omega)).symm.trans h1)
      omega

/-- C08: any other size is refused and nothing changes. -/
theorem C08_mask_count_refused (a : Addr) (n : Int) (h : ¬ MaskCountAccepted (ip a.getIpv6.addr) n) :
    a.setMaskCount n = (a, .throw .outOfRange) := by
  have hg := (setMaskCount_guard a n).2 h
  simp only [Addr.setMaskCount]
  rw [if_pos hg]

example : MaskCountAccepted (ip (sampleV4 10 0 0 1).getIpv6.addr) 104 ∧ ¬ MaskCountAccepted (ip (sampleV4 10 0 0 1).getIpv6.addr) 95
    ∧ MaskCountAccepted (ip (sampleAddr (Vector.replicate 16 1)).getIpv6.addr) 3
    ∧ ¬ MaskCountAccepted (ip (sampleAddr (Vector.replicate 16 1)).getIpv6.addr) 129 := by decide

/-! ## C09 -/

/-- C09: `get_mask_size()` is `n` exactly when the mask is `n` ones followed by zeros. -/
theorem C09_mask_size_iff (a : Addr) (n : Nat) (hn : n ≤ 128) : a.getMaskSize = n ↔ ip a.getMask = prefixMask n := by
  rcases getMaskSize_cases a with ⟨h1, h2⟩ | ⟨k, hk, h1, h2⟩
  · rw [h1]
    exact ⟨fun h => by omega, fun h => absurd h (h2 n hn)⟩
  · rw [h2]
    constructor
    · intro h
      obtain rfl : k = n := by omega
      exact h1
    · intro h
      rw [prefixMask_inj hn hk (h.symm.trans h1)]

/-- C09: every other mask gives -1, and no other value is ever returned. -/
theorem C09_mask_size_other (a : Addr) :
    (a.getMaskSize = -1 ↔ ∀ n, n ≤ 128 → ip a.getMask ≠ prefixMask n) ∧ -1 ≤ a.getMaskSize ∧ a.getMaskSize ≤ 128 := by
  rcases getMaskSize_cases a with ⟨h1, h2⟩ | ⟨k, hk, h1, h2⟩
  · exact ⟨⟨fun _ => h2, fun _ => h1⟩, by omega, by omega⟩
  · refine ⟨⟨fun h => by omega, fun h => absurd h1 (h k hk)⟩, by omega, by omega⟩

/-- Bit `i` of `prefixMask n`, counted from the least significant one: what "n ones followed by zeros" means. -/
theorem C09_prefixMask_bits (n i : Nat) (hn : n ≤ 128) :
    (prefixMask n).testBit i = decide (128 - n ≤ i ∧ i < 128) := by
  have : prefixMask n = (BitVec.allOnes 128 <<< (128 - n)).toNat := by rw [allOnes_shl_toNat _ (by omega)]; rfl
  rw [this, BitVec.testBit_toNat, BitVec.getLsbD_shiftLeft, BitVec.getLsbD_allOnes]
  by_cases h1 : i < 128 <;> by_cases h2 : i < 128 - n <;> simp [h1, h2] <;> omega

example : (⟨(Addr.fillMask 16 20).toArray, by simp [Addr.fillMask_length]⟩ : Bytes16).toList.take 4 = [0xFF, 0xFF, 0xF0, 0]
    ∧ Addr.getMaskSize { Addr.default with mask := Vector.replicate 16 0x80 } = -1 := by decide

/-! ## C10 -/

theorem testBit_word (b : Bytes16) (i : Nat) : (ip b).testBit i = (word b).getLsbD i := by
  rw [← word_toNat, BitVec.testBit_toNat]

/-- C10: `apply_mask()` keeps exactly the bits of the mask, `apply_mask(true)` sets exactly the bits outside of it, nothing
else of the object changes. -/
theorem C10_apply_mask_bits (a : Addr) (i : Nat) (hi : i < 128) :
    (ip (a.applyMask false).getIpv6.addr).testBit i = ((ip a.getIpv6.addr).testBit i && (ip a.getMask).testBit i)
      ∧ (ip (a.applyMask true).getIpv6.addr).testBit i = ((ip a.getIpv6.addr).testBit i || !(ip a.getMask).testBit i)
      ∧ SameButIp a (a.applyMask false) ∧ SameButIp a (a.applyMask true) := by
  refine ⟨?_, ?_, sameButIp_setBytes .., sameButIp_setBytes ..⟩
  · change (ip (a.applyMask false).bytes).testBit i = ((ip a.bytes).testBit i && (ip a.mask).testBit i)
    rw [testBit_word, testBit_word, testBit_word, word_applyMask_false, BitVec.getLsbD_and]
  · change (ip (a.applyMask true).bytes).testBit i = ((ip a.bytes).testBit i || !(ip a.mask).testBit i)
    rw [testBit_word, testBit_word, testBit_word, word_applyMask_true, BitVec.getLsbD_or, BitVec.getLsbD_not]
    simp [hi]

/-- C10: both forms are idempotent. -/
theorem C10_apply_mask_idempotent (a : Addr) (inv : Bool) : (a.applyMask inv).applyMask inv = a.applyMask inv := by
  have hm : ∀ inv, (a.applyMask inv).mask = a.mask := fun _ => rfl
  have key : ((a.applyMask inv).applyMask inv).bytes = (a.applyMask inv).bytes := by
    apply word_inj
    cases inv
    · rw [word_applyMask_false, word_applyMask_false, hm, BitVec.and_assoc, BitVec.and_self]
    · rw [word_applyMask_true, word_applyMask_true, hm, BitVec.or_assoc, BitVec.or_self]
  have hs : ∀ (x : Addr) (b : Bytes16), (x.setBytes b).bytes = b := fun _ _ => rfl
  have hss : ∀ (x : Addr) (b c : Bytes16), (x.setBytes b).setBytes c = x.setBytes c := fun _ _ _ => rfl
  unfold Addr.applyMask at key ⊢
  rw [hs, hs] at key
  rw [hss, hs]
  rw [key]

/-- C10: with a CIDR mask of size `n` the results are the first and the last address of the aligned block of `2^(128-n)`
addresses which holds the address. -/
theorem C10_apply_mask_block (a : Addr) (n : Nat) (h : a.getMaskSize = n) :
    ip (a.applyMask false).getIpv6.addr = blockFirst (ip a.getIpv6.addr) n
      ∧ ip (a.applyMask true).getIpv6.addr = blockLast (ip a.getIpv6.addr) n := by
  have hle : n ≤ 128 := by have := (C09_mask_size_other a).2.2; omega
  have hm := (C09_mask_size_iff a n hle).1 h
  exact ⟨ip_applyMask_false hle hm, ip_applyMask_true hle hm⟩

example : Addr.getMaskSize (({ sampleV4 10 1 2 3 with mask := Vector.replicate 16 0 }).setMaskCount 104).1 = 104
    ∧ Addr.eq (((sampleV4 10 1 2 3).setMaskCount 104).1.applyMask false) (sampleV4 10 0 0 0) = true
    ∧ Addr.eq (((sampleV4 10 1 2 3).setMaskCount 104).1.applyMask true) (sampleV4 10 255 255 255) = true := by decide +kernel

/-! ## C11 -/

/-- C11: without `any`, `match()` is agreement on every bit of the mask of the left address. -/
theorem C11_match_bits (a b : Addr) :
    a.matchAddr b false = true ↔
      ∀ i, i < 128 → (ip a.getMask).testBit i = true → (ip a.getIpv6.addr).testBit i = (ip b.getIpv6.addr).testBit i := by
  rw [matchAddr_iff_word]
  change _ ↔ ∀ i, i < 128 → (ip a.mask).testBit i = true → (ip a.bytes).testBit i = (ip b.bytes).testBit i
  simp only [testBit_word]
  constructor
  · intro h i hi hm
    have := congrArg (fun w => w.getLsbD i) h
    simpa [hm] using this
  · intro h
    apply BitVec.eq_of_getLsbD_eq
    intro i hi
    rw [BitVec.getLsbD_and, BitVec.getLsbD_and]
    by_cases hm : (word a.mask).getLsbD i = true
    · rw [h i hi hm]
    · simp [hm]

/-- C11: for a CIDR mask this is membership in the block between `apply_mask()` and `apply_mask(true)`. -/
theorem C11_match_block (a b : Addr) (n : Nat) (h : a.getMaskSize = n) :
    a.matchAddr b false = true ↔
      ip (a.applyMask false).getIpv6.addr ≤ ip b.getIpv6.addr ∧ ip b.getIpv6.addr ≤ ip (a.applyMask true).getIpv6.addr := by
  obtain ⟨h1, h2⟩ := C10_apply_mask_block a n h
  rw [h1, h2]
  have hle : n ≤ 128 := by have := (C09_mask_size_other a).2.2; omega
  have hm : ip a.mask = prefixMask n := (C09_mask_size_iff a n hle).1 h
  rw [matchAddr_iff_word, word_prefix hle hm, ← BitVec.toNat_inj, and_hi_toNat, and_hi_toNat, word_toNat, word_toNat]
  change _ ↔ blockFirst (ip a.bytes) n ≤ ip b.bytes ∧ ip b.bytes ≤ blockLast (ip a.bytes) n
  unfold blockFirst blockLast
  rw [← div_eq_iff_between]
  have hk0 : 0 < 2 ^ (128 - n) := Nat.pow_pos (by decide)
  exact ⟨fun h => Nat.eq_of_mul_eq_mul_right hk0 h, fun h => by rw [h]⟩

/-- C11: with `any` the default addresses `::` and `0.0.0.0` match everything, the other ones match as without it. -/
theorem C11_match_any (a b : Addr) :
    (isAny (ip a.getIpv6.addr) → a.matchAddr b true = true)
      ∧ (¬ isAny (ip a.getIpv6.addr) → a.matchAddr b true = a.matchAddr b false) := by
  have hd := isDefault_iff a
  constructor
  · intro h
    have h' : a.isDefault = true := hd.2 h
    simp [Addr.matchAddr, h']
  · intro h
    have h' : a.isDefault = false := by
      rw [← Bool.not_eq_true]; exact fun h' => h (hd.1 h')
    simp [Addr.matchAddr, h']

example : Addr.matchAddr ((sampleV4 10 1 2 3).setMaskCount 104).1 (sampleV4 10 9 9 9) = true
    ∧ Addr.matchAddr ((sampleV4 10 1 2 3).setMaskCount 104).1 (sampleV4 11 1 2 3) = false
    ∧ isAny (ip (sampleV4 0 0 0 0).getIpv6.addr) ∧ ¬ isAny (ip (sampleV4 0 0 0 1).getIpv6.addr) := by
  refine ⟨by decide, by decide, by unfold isAny; decide, by unfold isAny; decide⟩

end Verif
