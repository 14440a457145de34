import Verif.Model.SockaddrOrder
import Verif.SpecSockaddr
import Verif.Lemmas.Net

/-!
# C85: comparing socket addresses

The operators on `sockaddr_in6` compare all the fields.
-/

namespace Verif

open Spec

theorem lt_pair {x y k u v : Nat} (hu : u < k) (hv : v < k) : x * k + u < y * k + v ↔ x < y ∨ x = y ∧ u < v := by
  rcases Nat.lt_trichotomy x y with h | h | h
  · have h1 : (x + 1) * k ≤ y * k := Nat.mul_le_mul_right k h
    rw [Nat.succ_mul] at h1
    constructor
    · intro _; exact .inl h
    · intro _; omega
  · subst h
    constructor
    · intro h; exact .inr ⟨rfl, by omega⟩
    · rintro (h | ⟨_, h⟩) <;> omega
  · have h1 : (y + 1) * k ≤ x * k := Nat.mul_le_mul_right k h
    rw [Nat.succ_mul] at h1
    constructor
    · intro h; omega
    · rintro (h | ⟨h, _⟩) <;> omega

theorem value_bytes16 (x : BitVec 16) : value (SockaddrIn6.bytes16 x) = netShort x := by
  have := x.isLt
  simp only [SockaddrIn6.bytes16, value, List.foldl, netShort, BitVec.toNat_setWidth, BitVec.toNat_ushiftRight, Nat.shiftRight_eq_div_pow]
  omega

theorem div_16 (n : Nat) : n / 2 ^ 16 = n / 256 / 256 := by rw [Nat.div_div_eq_div_mul]

theorem div_24 (n : Nat) : n / 2 ^ 24 = n / 256 / 256 / 256 := by rw [Nat.div_div_eq_div_mul, Nat.div_div_eq_div_mul]

theorem value_bytes32 (x : BitVec 32) : value (SockaddrIn6.bytes32 x) = netLong x := by
  have := x.isLt
  simp only [SockaddrIn6.bytes32, value, List.foldl, netLong, BitVec.toNat_setWidth, BitVec.toNat_ushiftRight, Nat.shiftRight_eq_div_pow,
    div_16, div_24, show (2 : Nat) ^ 8 = 256 from rfl]
  omega

theorem netShort_inj {x y : BitVec 16} (h : netShort x = netShort y) : x = y := by
  have hx := x.isLt
  have hy := y.isLt
  unfold netShort at h
  apply BitVec.eq_of_toNat_eq
  omega

theorem digits4 {a b c d a' b' c' d' : Nat} (hb : b < 256) (hc : c < 256) (hd : d < 256) (hb' : b' < 256) (hc' : c' < 256)
    (hd' : d' < 256) (h : a * 2 ^ 24 + b * 2 ^ 16 + c * 256 + d = a' * 2 ^ 24 + b' * 2 ^ 16 + c' * 256 + d') :
    a = a' ∧ b = b' ∧ c = c' ∧ d = d' := by
  have h1 : a = a' := by omega
  have h2 : b = b' := by omega
  omega

theorem netLong_inj {x y : BitVec 32} (h : netLong x = netLong y) : x = y := by
  have hx := x.isLt
  have hy := y.isLt
  simp only [netLong, div_16, div_24] at h
  obtain ⟨h1, h2, h3, h4⟩ := digits4 (by omega) (by omega) (by omega) (by omega) (by omega) (by omega) h
  apply BitVec.eq_of_toNat_eq
  have a1 := Nat.div_add_mod x.toNat 256
  have a2 := Nat.div_add_mod (x.toNat / 256) 256
  have a3 := Nat.div_add_mod (x.toNat / 256 / 256) 256
  have b1 := Nat.div_add_mod y.toNat 256
  have b2 := Nat.div_add_mod (y.toNat / 256) 256
  have b3 := Nat.div_add_mod (y.toNat / 256 / 256) 256
  rw [← a1, ← b1, ← a2, ← b2, ← a3, ← b3, h1, h2, h3, h4]

/-- The number which the bytes of the structure are. -/
theorem memory_value (s : SockaddrIn6) :
    value s.memory = netShort s.family * 256 ^ 26 + (netShort s.port * 256 ^ 24 + (netLong s.flowinfo * 256 ^ 20
      + (ip s.addr * 256 ^ 4 + netLong s.scope))) := by
  unfold SockaddrIn6.memory ip
  simp only [List.append_assoc, value_append, value_bytes16, value_bytes32]
  simp [SockaddrIn6.bytes16, SockaddrIn6.bytes32]

theorem tails (s : SockaddrIn6) :
    netLong s.scope < 256 ^ 4 ∧ ip s.addr * 256 ^ 4 + netLong s.scope < 256 ^ 20
      ∧ netLong s.flowinfo * 256 ^ 20 + (ip s.addr * 256 ^ 4 + netLong s.scope) < 256 ^ 24
      ∧ netShort s.port * 256 ^ 24 + (netLong s.flowinfo * 256 ^ 20 + (ip s.addr * 256 ^ 4 + netLong s.scope)) < 256 ^ 26 := by
  have h1 := value_lt (SockaddrIn6.bytes32 s.scope)
  have h2 := value_lt (SockaddrIn6.bytes32 s.flowinfo)
  have h3 := value_lt (SockaddrIn6.bytes16 s.port)
  have h4 := value_lt s.addr.toList
  rw [value_bytes32] at h1 h2
  rw [value_bytes16] at h3
  simp only [SockaddrIn6.bytes16, SockaddrIn6.bytes32, List.length_cons, List.length_nil, Vector.length_toList] at h1 h2 h3 h4
  change ip s.addr < _ at h4
  omega

theorem memory_length (s : SockaddrIn6) : s.memory.length = 28 := by
  simp [SockaddrIn6.memory, SockaddrIn6.bytes16, SockaddrIn6.bytes32]

theorem value_before (a b : SockaddrIn6) : value a.memory < value b.memory ↔ SockaddrBefore a b := by
  obtain ⟨a1, a2, a3, a4⟩ := tails a
  obtain ⟨b1, b2, b3, b4⟩ := tails b
  rw [memory_value, memory_value, lt_pair a4 b4, lt_pair a3 b3, lt_pair a2 b2, lt_pair a1 b1]
  simp only [SockaddrBefore, lexBefore, and_false, or_false]

theorem value_same (a b : SockaddrIn6) : value a.memory = value b.memory ↔ a = b := by
  constructor
  · intro h
    have h1 : ¬ value a.memory < value b.memory := by omega
    have h2 : ¬ value b.memory < value a.memory := by omega
    rw [value_before] at h1 h2
    simp only [SockaddrBefore, lexBefore, and_false, or_false] at h1 h2
    have e1 : netShort a.family = netShort b.family := by omega
    have e2 : netShort a.port = netShort b.port := by omega
    have e3 : netLong a.flowinfo = netLong b.flowinfo := by omega
    have e4 : ip a.addr = ip b.addr := by omega
    have e5 : netLong a.scope = netLong b.scope := by omega
    cases a
    cases b
    simp only [SockaddrIn6.mk.injEq]
    exact ⟨netShort_inj e1, netShort_inj e2, netLong_inj e3, ip_inj e4, netLong_inj e5⟩
  · intro h; rw [h]

/-- The operators compare all the fields: family, port, flow, address, scope, in this order. -/
theorem C85_comparisons (a b : SockaddrIn6) :
    (SockaddrIn6.eq a b = true ↔ a = b) ∧ (SockaddrIn6.ne a b = true ↔ a ≠ b)
      ∧ (SockaddrIn6.lt a b = true ↔ SockaddrBefore a b) ∧ (SockaddrIn6.le a b = true ↔ SockaddrBefore a b ∨ a = b)
      ∧ (SockaddrIn6.gt a b = true ↔ SockaddrBefore b a) ∧ (SockaddrIn6.ge a b = true ↔ SockaddrBefore b a ∨ a = b) := by
  rw [← value_before, ← value_before, Ne, ← value_same]
  have hc : SockaddrIn6.cmp a b = _ := memcmp_eq (by rw [memory_length, memory_length])
  simp only [SockaddrIn6.eq, SockaddrIn6.ne, SockaddrIn6.lt, SockaddrIn6.le, SockaddrIn6.gt, SockaddrIn6.ge, hc]
  generalize value a.memory = x
  generalize value b.memory = y
  rcases Nat.lt_trichotomy x y with h | h | h
  · simp [h]; omega
  · simp [h]
  · have h1 : ¬ x < y := by omega
    have h2 : ¬ x = y := by omega
    simp [h1, h2]; omega

/-- The order is total, its equivalence is equality. -/
theorem C85_total_order (a b c : SockaddrIn6) :
    SockaddrIn6.lt a a = false ∧ (SockaddrIn6.lt a b = true → SockaddrIn6.lt b c = true → SockaddrIn6.lt a c = true)
      ∧ (SockaddrIn6.lt a b = true ∨ a = b ∨ SockaddrIn6.lt b a = true) := by
  have l := fun x y => ((C85_comparisons x y).2.2.1).trans (value_before x y).symm
  refine ⟨?_, ?_, ?_⟩
  · rw [← Bool.not_eq_true, l]; omega
  · rw [l, l, l]; omega
  · rw [l, l, ← value_same]; omega

/-- For the structures of two addresses (`get_ipv6()`): with the same port, flow and scope, the order is the one of the
addresses. -/
theorem C85_same_port (a b : Addr) (hf : a.getIpv6.family = b.getIpv6.family) (hp : a.getPort = b.getPort)
    (hw : a.getIpv6.flowinfo = b.getIpv6.flowinfo) (hs : a.getIpv6.scope = b.getIpv6.scope) :
    SockaddrIn6.lt a.getIpv6 b.getIpv6 = Addr.lt a b ∧ SockaddrIn6.eq a.getIpv6 b.getIpv6 = Addr.eq a b := by
  have hport : a.getIpv6.port = b.getIpv6.port := by
    have : swap16 a.address.port = swap16 b.address.port := BitVec.eq_of_toNat_eq hp
    have h2 : swap16 (swap16 a.address.port) = swap16 (swap16 b.address.port) := by rw [this]
    rwa [swap16_swap16, swap16_swap16] at h2
  have hc : Addr.cmp a b = if ip a.bytes < ip b.bytes then -1 else if ip a.bytes = ip b.bytes then 0 else 1 := memcmp_eq (by simp)
  constructor
  · rw [Bool.eq_iff_iff, (C85_comparisons _ _).2.2.1]
    simp only [SockaddrBefore, lexBefore, hf, hport, hw, hs, Addr.lt, hc, Nat.lt_irrefl, true_and, false_or, and_false, or_false]
    change ip a.bytes < ip b.bytes ↔ _
    by_cases h : ip a.bytes < ip b.bytes
    · simp [h]
    · by_cases h2 : ip a.bytes = ip b.bytes <;> simp [h, h2]
  · rw [Bool.eq_iff_iff, (C85_comparisons _ _).1]
    have h1 : a.getIpv6 = b.getIpv6 ↔ ip a.bytes = ip b.bytes := by
      constructor
      · intro h
        show ip a.getIpv6.addr = ip b.getIpv6.addr
        rw [h]
      · intro h
        have h3 : a.getIpv6.addr = b.getIpv6.addr := ip_inj h
        revert hf hport hw hs h3
        generalize a.getIpv6 = x
        generalize b.getIpv6 = y
        intro hf hw hs hport h3
        cases x
        cases y
        simp_all
    rw [h1]
    simp only [Addr.eq, hc]
    by_cases h : ip a.bytes < ip b.bytes
    · have : ip a.bytes ≠ ip b.bytes := by omega
      simp [h, this]
    · by_cases h2 : ip a.bytes = ip b.bytes <;> simp [h, h2]

/-- The port counts before the address: 255.255.255.255 with port 80 is before 0.0.0.1 with port 256, of which the bytes in
memory are the other way around for a little-endian host. -/
example : SockaddrIn6.lt { family := 10, port := 0x5000, flowinfo := 0, addr := Vector.replicate 16 0xFF, scope := 0 }
    { family := 10, port := 0x0001, flowinfo := 0, addr := Vector.replicate 16 0, scope := 0 } = true
    ∧ netShort 0x5000 = 80 ∧ netShort 0x0001 = 256 := by decide +kernel

end Verif
