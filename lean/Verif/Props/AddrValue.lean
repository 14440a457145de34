import Verif.Spec
import Verif.Lemmas.Value
import Verif.Lemmas.Net
import Verif.Model.AddrOps

/-!
# Properties C01–C07: the value of an `addr`
-/

namespace Verif

open Spec

/-- Everything but the sixteen address bytes (and the cached network type) is the same. -/
structure SameButIp (a b : Addr) : Prop where
  family : b.address.family = a.address.family
  port : b.address.port = a.address.port
  flowinfo : b.address.flowinfo = a.address.flowinfo
  scope : b.address.scope = a.address.scope
  mask : b.mask = a.mask
  portDefined : b.portDefined = a.portDefined
  protocolDefined : b.protocolDefined = a.protocolDefined
  maskDefined : b.maskDefined = a.maskDefined
  protocol : b.protocol = a.protocol
  interface : b.interface = a.interface
  hostname : b.hostname = a.hostname

/-- Everything but the socket address (and the cached network type) is the same. -/
structure SameButAddress (a b : Addr) : Prop where
  mask : b.mask = a.mask
  portDefined : b.portDefined = a.portDefined
  protocolDefined : b.protocolDefined = a.protocolDefined
  maskDefined : b.maskDefined = a.maskDefined
  protocol : b.protocol = a.protocol
  interface : b.interface = a.interface
  hostname : b.hostname = a.hostname

/-- An address with given bytes, for the examples. -/
def sampleAddr (b : Bytes16) : Addr := { Addr.default with address := { initIn6 with addr := b } }

/-- The IPv4 address `w.x.y.z`, for the examples. -/
def sampleV4 (w x y z : Byte) : Addr := sampleAddr #v[0, 0, 0, 0, 0, 0, 0, 0, 0, 0, 0xFF, 0xFF, w, x, y, z]

/-! ## C01 -/

/-- C01: a stored `sockaddr_in` is read back with the same port and address and with its padding zeroed, the IPv6 view is
the number of `::ffff:a.b.c.d`, nothing but the socket address of the object changes. -/
theorem C01_ipv4_roundtrip (a : Addr) (s : SockaddrIn) (h : s.family = 2) :
    ∃ a', a.setIpv4 s = (a', .ok ())
      ∧ a'.getIpv4 = .ok { family := 2, port := s.port, addr := s.addr, zero := Vector.replicate 8 0 }
      ∧ a'.isIpv4 = true
      ∧ a'.getFamily = 2
      ∧ ip a'.getIpv6.addr = v4 s.addr[0].toNat s.addr[1].toNat s.addr[2].toNat s.addr[3].toNat
      ∧ a'.getIpv6.family = 10 ∧ a'.getIpv6.port = s.port ∧ a'.getIpv6.flowinfo = 0 ∧ a'.getIpv6.scope = 0
      ∧ SameButAddress a a' := by
  have hf : ¬ s.family ≠ AF_INET := by simp [AF_INET, h]
  refine ⟨_, by simp only [Addr.setIpv4, if_neg hf]; rfl, ?_⟩
  have hv : ∀ w x y z : Byte, Addr.isIpv4 (Addr.addressChanged { a with address :=
      { family := AF_INET6, port := s.port, flowinfo := 0, scope := 0,
        addr := #v[0, 0, 0, 0, 0, 0, 0, 0, 0, 0, 0xFF, 0xFF, w, x, y, z] } }) = true := by
    intro w x y z
    simp [Addr.isIpv4, Addr.word32, Addr.word16, Addr.bytes, Addr.addressChanged]
    exact ⟨show (0#8 ++ 0#8 : BitVec 16) = 0#16 by decide, show (255#8 ++ 255#8 : BitVec 16) = 65535#16 by decide⟩
  refine ⟨?_, hv .., ?_, ?_, rfl, rfl, rfl, rfl, ⟨rfl, rfl, rfl, rfl, rfl, rfl, rfl⟩⟩
  · unfold Addr.getIpv4
    rw [if_pos (hv ..)]
    congr 2
    ext i hi
    have : i = 0 ∨ i = 1 ∨ i = 2 ∨ i = 3 := by omega
    rcases this with rfl | rfl | rfl | rfl <;> rfl
  · unfold Addr.getFamily
    rw [if_pos (hv ..)]; rfl
  · simp [Addr.getIpv6, Addr.addressChanged, ip, value, v4, List.foldl_cons, List.foldl_nil]
    omega

example : ∃ s : SockaddrIn, s.family = 2 ∧ s.addr = #v[192, 168, 1, 10] ∧ s.port = swap16 443 :=
  ⟨{ family := 2, port := swap16 443, addr := #v[192, 168, 1, 10], zero := Vector.replicate 8 7 }, rfl, rfl, rfl⟩

/-- C01: any other family is refused and the object is unchanged. -/
theorem C01_ipv4_refused (a : Addr) (s : SockaddrIn) (h : s.family ≠ 2) :
    a.setIpv4 s = (a, .throw .invalidArgument) ∧ Addr.ofIn s = .throw .invalidArgument := by
  have hf : s.family ≠ AF_INET := h
  simp [Addr.setIpv4, Addr.ofIn, hf]

example : ∃ s : SockaddrIn, s.family ≠ 2 := ⟨{ family := 10, port := 0, addr := #v[1, 2, 3, 4], zero := Vector.replicate 8 0 }, by decide⟩

/-- C01: the constructor from a `sockaddr_in` is a default object on which `set_ipv4()` was called. -/
theorem C01_ipv4_constructor (s : SockaddrIn) (h : s.family = 2) :
    ∃ a', Addr.ofIn s = .ok a'
      ∧ a'.getIpv4 = .ok { family := 2, port := s.port, addr := s.addr, zero := Vector.replicate 8 0 }
      ∧ SameButAddress Addr.default a' := by
  obtain ⟨a', h1, h2, _, _, _, _, _, _, _, h3⟩ := C01_ipv4_roundtrip Addr.default s h
  refine ⟨a', ?_, h2, h3⟩
  simp [Addr.ofIn, h1]

/-! ## C02 -/

/-- C02: a stored `sockaddr_in6` is read back identically; nothing else changes. -/
theorem C02_ipv6_roundtrip (a : Addr) (s : SockaddrIn6) (h : s.family = 10) :
    ∃ a', a.setIpv6 s = (a', .ok ()) ∧ a'.getIpv6 = s ∧ SameButAddress a a' := by
  have hf : ¬ s.family ≠ AF_INET6 := by simp [AF_INET6, h]
  exact ⟨Addr.addressChanged { a with address := s }, by simp only [Addr.setIpv6, if_neg hf], rfl, ⟨rfl, rfl, rfl, rfl, rfl, rfl, rfl⟩⟩

example : ∃ s : SockaddrIn6, s.family = 10 ∧ s.scope = 3 :=
  ⟨{ family := 10, port := 5, flowinfo := 9, scope := 3, addr := Vector.replicate 16 1 }, rfl, rfl⟩

/-- C02: the constructor from a `sockaddr_in6` is a default object on which `set_ipv6()` was called. -/
theorem C02_ipv6_constructor (s : SockaddrIn6) (h : s.family = 10) :
    ∃ a', Addr.ofIn6 s = .ok a' ∧ a'.getIpv6 = s ∧ SameButAddress Addr.default a' := by
  obtain ⟨a', h1, h2, h3⟩ := C02_ipv6_roundtrip Addr.default s h
  exact ⟨a', by simp [Addr.ofIn6, h1], h2, h3⟩

/-- C02: any other family is refused and the object is unchanged. -/
theorem C02_ipv6_refused (a : Addr) (s : SockaddrIn6) (h : s.family ≠ 10) :
    a.setIpv6 s = (a, .throw .invalidArgument) ∧ Addr.ofIn6 s = .throw .invalidArgument := by
  have hf : s.family ≠ AF_INET6 := h
  simp [Addr.setIpv6, Addr.ofIn6, hf]

example : ∃ s : SockaddrIn6, s.family ≠ 10 :=
  ⟨{ family := 2, port := 5, flowinfo := 9, scope := 3, addr := Vector.replicate 16 1 }, by decide⟩

/-- C02: `is_ipv4()` is true exactly for the numbers of `::ffff:0:0/96`, `get_ipv4()` succeeds exactly then and returns the
last four bytes and the port, otherwise it throws. -/
theorem C02_get_ipv4_iff_mapped (a : Addr) :
    (a.isIpv4 = true ↔ isV4 (ip a.getIpv6.addr))
      ∧ (isV4 (ip a.getIpv6.addr) → ∃ s, a.getIpv4 = .ok s ∧ s.family = 2 ∧ s.port = a.getIpv6.port
          ∧ ip a.getIpv6.addr = v4 s.addr[0].toNat s.addr[1].toNat s.addr[2].toNat s.addr[3].toNat)
      ∧ (¬ isV4 (ip a.getIpv6.addr) → a.getIpv4 = .throw .invalidState) := by
  have hi := isIpv4_iff a
  refine ⟨hi, ?_, ?_⟩
  · intro h
    refine ⟨_, by rw [Addr.getIpv4, if_pos (hi.2 h)], rfl, rfl, ?_⟩
    change isV4 (ip a.bytes) at h
    change ip a.bytes = _
    generalize a.bytes = b at h ⊢
    have h12 : ip b = value (b.toList.take 12) * 2 ^ 32 + value (b.toList.drop 12) := by
      have := value_append (b.toList.take 12) (b.toList.drop 12)
      rw [List.take_append_drop] at this
      rw [ip, this]; simp
    have hd : b.toList.drop 12 = [b[12], b[13], b[14], b[15]] := by
      obtain ⟨b0, b1, b2, b3, b4, b5, b6, b7, b8, b9, b10, b11, b12, b13, b14, b15, rfl⟩ := bytes16_cases b
      rfl
    have hv : value (b.toList.drop 12)
        = ((b[12].toNat * 256 + b[13].toNat) * 256 + b[14].toNat) * 256 + b[15].toNat := by
      rw [hd]; simp [value]; omega
    have hlt : value (b.toList.drop 12) < 2 ^ 32 := by
      have := value_lt (b.toList.drop 12)
      rw [hd] at this ⊢; simpa using this
    rw [isV4_iff_div, h12, Nat.mul_comm, Nat.mul_add_div (by decide), Nat.div_eq_of_lt hlt] at h
    rw [h12, hv]
    simp only [v4, Vector.getElem_mk, List.getElem_toArray, List.getElem_cons_zero, List.getElem_cons_succ]
    omega
  · intro h
    rw [Addr.getIpv4, if_neg (fun h' => h (hi.1 h'))]

example : isV4 (ip (sampleV4 10 0 0 1).getIpv6.addr) ∧ ¬ isV4 (ip (sampleAddr (Vector.replicate 16 1)).getIpv6.addr) := by
  decide

/-! ## C03 -/

/-- C03: `ip_to_uint128()` is the number the sixteen bytes write in base 256. -/
theorem C03_to_uint128_value (a : Addr) : a.ipToUint128.toNat = ip a.getIpv6.addr := ipToUint128_toNat a

/-- C03: `ip_from_uint128()` is the inverse of `ip_to_uint128()` in both directions. -/
theorem C03_uint128_bijection (a : Addr) (u : BitVec 128) :
    (a.ipFromUint128 u).ipToUint128 = u ∧ a.ipFromUint128 a.ipToUint128 = a
      ∧ ip (a.ipFromUint128 u).getIpv6.addr = u.toNat := by
  have h1 : ip (a.ipFromUint128 u).bytes = u.toNat := ip_fromUint a u
  refine ⟨?_, ?_, h1⟩
  · apply BitVec.eq_of_toNat_eq
    rw [ipToUint128_toNat, h1]
  · have : (a.ipFromUint128 a.ipToUint128).bytes = a.bytes := by
      apply ip_inj
      rw [ip_fromUint, ipToUint128_toNat]
    unfold Addr.ipFromUint128 Addr.setBytes Addr.bytes at *
    simp only at this
    rw [this]

theorem sameButIp_setBytes (a : Addr) (b : Bytes16) : SameButIp a (a.setBytes b) :=
  ⟨rfl, rfl, rfl, rfl, rfl, rfl, rfl, rfl, rfl, rfl, rfl⟩

/-- C03: nothing but the sixteen bytes changes. -/
theorem C03_from_uint128_frame (a : Addr) (u : BitVec 128) : SameButIp a (a.ipFromUint128 u) :=
  sameButIp_setBytes ..

example : ip ((sampleV4 1 2 3 4).ipFromUint128 0x20010db8000000000000000000000001).getIpv6.addr
    = 0x20010db8000000000000000000000001 := by decide

/-! ## C04 -/

theorem cmp_eq (a b : Addr) :
    Addr.cmp a b = if ip a.bytes < ip b.bytes then -1 else if ip a.bytes = ip b.bytes then 0 else 1 :=
  memcmp_eq (by simp)

/-- C04: the six operators are the comparisons of the numbers. -/
theorem C04_comparisons (a b : Addr) :
    (Addr.eq a b = true ↔ ip a.getIpv6.addr = ip b.getIpv6.addr)
      ∧ (Addr.ne a b = true ↔ ip a.getIpv6.addr ≠ ip b.getIpv6.addr)
      ∧ (Addr.lt a b = true ↔ ip a.getIpv6.addr < ip b.getIpv6.addr)
      ∧ (Addr.le a b = true ↔ ip a.getIpv6.addr ≤ ip b.getIpv6.addr)
      ∧ (Addr.gt a b = true ↔ ip a.getIpv6.addr > ip b.getIpv6.addr)
      ∧ (Addr.ge a b = true ↔ ip a.getIpv6.addr ≥ ip b.getIpv6.addr) := by
  change (Addr.eq a b = true ↔ ip a.bytes = ip b.bytes) ∧ (Addr.ne a b = true ↔ ip a.bytes ≠ ip b.bytes)
    ∧ (Addr.lt a b = true ↔ ip a.bytes < ip b.bytes) ∧ (Addr.le a b = true ↔ ip a.bytes ≤ ip b.bytes)
    ∧ (Addr.gt a b = true ↔ ip a.bytes > ip b.bytes) ∧ (Addr.ge a b = true ↔ ip a.bytes ≥ ip b.bytes)
  simp only [Addr.eq, Addr.ne, Addr.lt, Addr.le, Addr.gt, Addr.ge, cmp_eq]
  generalize ip a.bytes = x
  generalize ip b.bytes = y
  rcases Nat.lt_trichotomy x y with h | h | h
  · simp [h]; omega
  · simp [h]
  · have h1 : ¬ x < y := by omega
    have h2 : ¬ x = y := by omega
    simp [h1, h2]; omega

/-- C04: `<` is a strict total order whose equivalence is `==`. -/
theorem C04_total_order (a b c : Addr) :
    Addr.lt a a = false ∧ (Addr.lt a b = true → Addr.lt b c = true → Addr.lt a c = true)
      ∧ (Addr.lt a b = true ∨ Addr.eq a b = true ∨ Addr.lt b a = true)
      ∧ (Addr.eq a b = true ↔ Addr.lt a b = false ∧ Addr.lt b a = false) := by
  have e := fun x y => (C04_comparisons x y).1
  have l := fun x y => (C04_comparisons x y).2.2.1
  refine ⟨?_, ?_, ?_, ?_⟩
  · rw [← Bool.not_eq_true, l]; omega
  · rw [l, l, l]; omega
  · rw [l, e, l]; omega
  · rw [← Bool.not_eq_true, ← Bool.not_eq_true, e, l, l]; omega

/-- C04: the other fields of the two objects never influence the result. -/
theorem C04_only_ip (a b a' b' : Addr) (ha : a'.getIpv6.addr = a.getIpv6.addr) (hb : b'.getIpv6.addr = b.getIpv6.addr) :
    Addr.eq a' b' = Addr.eq a b ∧ Addr.ne a' b' = Addr.ne a b ∧ Addr.lt a' b' = Addr.lt a b
      ∧ Addr.le a' b' = Addr.le a b ∧ Addr.gt a' b' = Addr.gt a b ∧ Addr.ge a' b' = Addr.ge a b := by
  obtain ⟨h1, h2, h3, h4, h5, h6⟩ := C04_comparisons a b
  obtain ⟨k1, k2, k3, k4, k5, k6⟩ := C04_comparisons a' b'
  rw [ha, hb] at k1 k2 k3 k4 k5 k6
  simp only [Bool.eq_iff_iff, h1, h2, h3, h4, h5, h6, k1, k2, k3, k4, k5, k6, and_self]

example : Addr.lt (sampleV4 10 0 0 1) (sampleV4 10 0 1 0) = true
    ∧ Addr.eq { sampleV4 10 0 0 1 with hostname := ['a'], protocol := 17 } (sampleV4 10 0 0 1) = true := by decide

/-! ## C05 -/

theorem saturatedAdd_toNat (l r : BitVec 128) :
    (Addr.saturatedAdd l r).toNat = clamp ((l.toNat : Int) + r.toNat) := by
  have hl := l.isLt
  have hr := r.isLt
  unfold Addr.saturatedAdd clamp maxIp
  have hadd : (l + r).toNat = (l.toNat + r.toNat) % 2 ^ 128 := BitVec.toNat_add l r
  split <;> rename_i h
  · rw [BitVec.lt_def, hadd] at h
    rw [if_neg (by omega), if_pos (by omega)]; rfl
  · rw [BitVec.lt_def, hadd] at h
    rw [hadd, if_neg (by omega), if_neg (by omega)]
    omega

theorem saturatedSubtract_toNat (l r : BitVec 128) :
    (Addr.saturatedSubtract l r).toNat = clamp ((l.toNat : Int) - r.toNat) := by
  have hl := l.isLt
  have hr := r.isLt
  unfold Addr.saturatedSubtract clamp maxIp
  split <;> rename_i h
  · rw [BitVec.lt_def] at h
    rw [if_pos (by omega)]; rfl
  · rw [BitVec.lt_def] at h
    rw [BitVec.toNat_sub, if_neg (by omega), if_neg (by omega)]
    omega

theorem negOffset_ok (n : Int) (h : IsCInt n) (hneg : n < 0) (hmin : n ≠ -2147483648) :
    ∃ o, Addr.negOffset n = .ok o ∧ (o.toNat : Int) = -n := by
  refine ⟨_, by rw [Addr.negOffset, if_neg hmin], ?_⟩
  obtain ⟨h1, h2⟩ := h
  rw [BitVec.toNat_setWidth, BitVec.toNat_ofInt]
  omega

theorem ofInt128_toNat (n : Int) (h : IsCInt n) (hpos : ¬ n < 0) : ((BitVec.ofInt 128 n).toNat : Int) = n := by
  obtain ⟨h1, h2⟩ := h
  rw [BitVec.toNat_ofInt]
  omega

/-- C05: `++` and `--` move to the next or previous address and stop at the ends; the postfix forms return the object as it
was. -/
theorem C05_inc_dec (a : Addr) :
    ip a.preInc.getIpv6.addr = clamp (ip a.getIpv6.addr + 1) ∧ SameButIp a a.preInc
      ∧ ip a.preDec.getIpv6.addr = clamp (ip a.getIpv6.addr - 1) ∧ SameButIp a a.preDec
      ∧ a.postInc = (a.preInc, a) ∧ a.postDec = (a.preDec, a) := by
  refine ⟨?_, C03_from_uint128_frame .., ?_, C03_from_uint128_frame .., rfl, rfl⟩
  · change ip (a.ipFromUint128 _).bytes = _
    rw [ip_fromUint, saturatedAdd_toNat, ipToUint128_toNat]; rfl
  · change ip (a.ipFromUint128 _).bytes = _
    rw [ip_fromUint, saturatedSubtract_toNat, ipToUint128_toNat]; rfl

/-- C05: adding or subtracting any `int` but `INT_MIN` gives the clamped sum, in the four forms of the operators. -/
theorem C05_add_sub (a : Addr) (n : Int) (h : IsCInt n) (hmin : n ≠ -2147483648) :
    ∃ p q : Addr, ip p.getIpv6.addr = clamp (ip a.getIpv6.addr + n) ∧ SameButIp a p
      ∧ ip q.getIpv6.addr = clamp (ip a.getIpv6.addr - n) ∧ SameButIp a q
      ∧ a.add n = .ok p ∧ a.addAssign n = (p, .ok ())
      ∧ a.sub n = .ok q ∧ a.subAssign n = (q, .ok ()) := by
  by_cases hneg : n < 0
  · obtain ⟨o, ho, hon⟩ := negOffset_ok n h hneg hmin
    refine ⟨a.ipFromUint128 (Addr.saturatedSubtract a.ipToUint128 o), a.ipFromUint128 (Addr.saturatedAdd a.ipToUint128 o),
      ?_, C03_from_uint128_frame .., ?_, C03_from_uint128_frame .., ?_, ?_, ?_, ?_⟩
    · change ip (a.ipFromUint128 _).bytes = _
      rw [ip_fromUint, saturatedSubtract_toNat, ipToUint128_toNat, hon, Int.sub_neg]; rfl
    · change ip (a.ipFromUint128 _).bytes = _
      rw [ip_fromUint, saturatedAdd_toNat, ipToUint128_toNat, hon, ← Int.sub_eq_add_neg]; rfl
    · rw [Addr.add, if_pos hneg, ho]; rfl
    · rw [Addr.addAssign, if_pos hneg, ho]
    · rw [Addr.sub, if_pos hneg, ho]; rfl
    · rw [Addr.subAssign, if_pos hneg, ho]
  · have hon := ofInt128_toNat n h hneg
    refine ⟨a.ipFromUint128 (Addr.saturatedAdd a.ipToUint128 (BitVec.ofInt 128 n)),
      a.ipFromUint128 (Addr.saturatedSubtract a.ipToUint128 (BitVec.ofInt 128 n)),
      ?_, C03_from_uint128_frame .., ?_, C03_from_uint128_frame .., ?_, ?_, ?_, ?_⟩
    · change ip (a.ipFromUint128 _).bytes = _
      rw [ip_fromUint, saturatedAdd_toNat, ipToUint128_toNat, hon]; rfl
    · change ip (a.ipFromUint128 _).bytes = _
      rw [ip_fromUint, saturatedSubtract_toNat, ipToUint128_toNat, hon]; rfl
    · rw [Addr.add, if_neg hneg]; rfl
    · rw [Addr.addAssign, if_neg hneg]
    · rw [Addr.sub, if_neg hneg]; rfl
    · rw [Addr.subAssign, if_neg hneg]

example : IsCInt (-300) ∧ (-300 : Int) ≠ -2147483648 ∧ clamp (ip (sampleAddr (Vector.replicate 16 0)).getIpv6.addr + (-300)) = 0 := by
  decide

/-- C05: the remaining `int`, `INT_MIN`, is undefined behaviour in the four forms, and the compound forms have not changed
the object when it strikes. -/
theorem C05_int_min_undefined (a : Addr) :
    a.add (-2147483648) = .ub .signedOverflow ∧ a.sub (-2147483648) = .ub .signedOverflow
      ∧ a.addAssign (-2147483648) = (a, .ub .signedOverflow) ∧ a.subAssign (-2147483648) = (a, .ub .signedOverflow) :=
  ⟨rfl, rfl, rfl, rfl⟩

/-! ## C06 -/

/-- C06: the difference of two addresses is the exact distance when it fits a signed 128 bit integer, and the distance
modulo `2^128` brought in that range otherwise. -/
theorem C06_difference (a b : Addr) :
    let d : Int := (ip b.getIpv6.addr : Int) - ip a.getIpv6.addr
    (-(2 ^ 127) ≤ d → d < 2 ^ 127 → Addr.diff b a = d)
      ∧ (Addr.diff b a - d) % 2 ^ 128 = 0 ∧ -(2 ^ 127) ≤ Addr.diff b a ∧ Addr.diff b a < 2 ^ 127 := by
  change let d : Int := (ip b.bytes : Int) - ip a.bytes; _
  have hd : Addr.diff b a = ((ip b.bytes : Int) - ip a.bytes).bmod (2 ^ 128) := by
    unfold Addr.diff
    rw [BitVec.toInt_sub, BitVec.toInt_eq_toNat_bmod, BitVec.toInt_eq_toNat_bmod, ipToUint128_toNat, ipToUint128_toNat]
    rw [← Int.sub_bmod]
  have ha := ip_lt a.bytes
  have hb := ip_lt b.bytes
  change (-(2 ^ 127) ≤ (ip b.bytes : Int) - ip a.bytes → (ip b.bytes : Int) - ip a.bytes < 2 ^ 127 → _ = (ip b.bytes : Int) - ip a.bytes)
    ∧ (_ - ((ip b.bytes : Int) - ip a.bytes)) % 2 ^ 128 = 0 ∧ _
  rw [hd, Int.bmod]
  generalize ip a.bytes = x at *
  generalize ip b.bytes = y at *
  refine ⟨?_, ?_, ?_, ?_⟩ <;> split <;> omega

/-- C06: `(a + n) - a` is `n` when the addition does not saturate. -/
theorem C06_add_then_diff (a p : Addr) (n : Int) (h : IsCInt n) (hadd : a.add n = .ok p)
    (hlo : 0 ≤ (ip a.getIpv6.addr : Int) + n) (hhi : (ip a.getIpv6.addr : Int) + n ≤ maxIp) : Addr.diff p a = n := by
  have hmin : n ≠ -2147483648 := by
    rintro rfl
    rw [(C05_int_min_undefined a).1] at hadd; cases hadd
  obtain ⟨p', q, hp, _, _, _, hadd', _⟩ := C05_add_sub a n h hmin
  obtain rfl : p' = p := by rw [hadd'] at hadd; cases hadd; rfl
  obtain ⟨h1, h2⟩ := h
  have hc : (clamp ((ip a.getIpv6.addr : Int) + n) : Int) = (ip a.getIpv6.addr : Int) + n := by
    unfold clamp
    rw [if_neg (by omega), if_neg (by omega)]
    omega
  have := (C06_difference a p').1
  rw [hp, hc] at this
  rw [this (by omega) (by omega)]
  omega

example : ∃ p, (sampleV4 10 0 0 1).add (-2) = .ok p ∧ Addr.diff p (sampleV4 10 0 0 1) = -2 := ⟨_, rfl, by decide⟩

/-! ## C07 -/

/-- C07: the two predicates say "right after" and "right before" as numbers (so neither wraps around), and they are mirror
images. -/
theorem C07_neighbours (a b : Addr) :
    (a.isNext b = true ↔ ip b.getIpv6.addr = ip a.getIpv6.addr + 1)
      ∧ (a.isPrevious b = true ↔ ip b.getIpv6.addr + 1 = ip a.getIpv6.addr)
      ∧ a.isNext b = b.isPrevious a := by
  have ha := ip_lt a.bytes
  have hb := ip_lt b.bytes
  have hn : ∀ a b : Addr, ip a.bytes < 2 ^ 128 → ip b.bytes < 2 ^ 128 →
      (a.isNext b = true ↔ ip b.bytes = ip a.bytes + 1) := by
    intro a b ha hb
    simp only [Addr.isNext, Bool.and_eq_true, bne_iff_ne, beq_iff_eq, ne_eq, ← BitVec.toNat_inj, BitVec.toNat_add,
      ipToUint128_toNat]
    rw [show (0xFFFFFFFFFFFFFFFFFFFFFFFFFFFFFFFF : BitVec 128).toNat = 2 ^ 128 - 1 by decide,
      show (1 : BitVec 128).toNat = 1 by decide]
    omega
  have hp : ∀ a b : Addr, ip a.bytes < 2 ^ 128 → ip b.bytes < 2 ^ 128 →
      (a.isPrevious b = true ↔ ip b.bytes + 1 = ip a.bytes) := by
    intro a b ha hb
    simp only [Addr.isPrevious, Bool.and_eq_true, bne_iff_ne, beq_iff_eq, ne_eq, ← BitVec.toNat_inj, BitVec.toNat_sub,
      ipToUint128_toNat]
    rw [show (0 : BitVec 128).toNat = 0 by decide, show (1 : BitVec 128).toNat = 1 by decide]
    omega
  refine ⟨hn a b ha hb, hp a b ha hb, ?_⟩
  rw [Bool.eq_iff_iff, hn a b ha hb, hp b a hb ha]
  omega

example : (sampleV4 10 0 0 255).isNext (sampleV4 10 0 1 0) = true
    ∧ (sampleAddr (Vector.replicate 16 255)).isNext (sampleAddr (Vector.replicate 16 0)) = false
    ∧ (sampleAddr (Vector.replicate 16 0)).isPrevious (sampleAddr (Vector.replicate 16 255)) = false := by decide

end Verif
