import Verif.Props.AddrNet

/-!
# Properties C15–C20: ports, protocols, failures and sockets
-/

namespace Verif

open Spec

/-! ## C15 -/

/-- Everything but the port and its "defined" flag is the same. -/
structure SameButPort (a b : Addr) : Prop where
  family : b.address.family = a.address.family
  flowinfo : b.address.flowinfo = a.address.flowinfo
  addr : b.address.addr = a.address.addr
  scope : b.address.scope = a.address.scope
  mask : b.mask = a.mask
  protocolDefined : b.protocolDefined = a.protocolDefined
  maskDefined : b.maskDefined = a.maskDefined
  protocol : b.protocol = a.protocol
  privateNetwork : b.privateNetwork = a.privateNetwork
  interface : b.interface = a.interface
  hostname : b.hostname = a.hostname

/-- C15: `set_port(n)` with `n` in 0..65535 is read back by `get_port()`, marks the port as defined and changes nothing
else; the field of the socket address holds the number in network order. -/
theorem C15_set_port (a : Addr) (n : Nat) (h : n ≤ 65535) :
    ∃ a', a.setPort n = (a', .ok ()) ∧ a'.getPort = n ∧ a'.portDefined = true ∧ SameButPort a a'
      ∧ (a'.getIpv6.port.toNat % 256) * 256 + a'.getIpv6.port.toNat / 256 = n := by
  have hg : ¬ ((n : Int) > 65535 ∨ (n : Int) < 0) := by omega
  have hp : (BitVec.ofInt 16 (n : Int)).toNat = n := by
    rw [BitVec.toNat_ofInt]; omega
  refine ⟨{ a with portDefined := true, address := { a.address with port := swap16 (BitVec.ofInt 16 n) } },
    by simp only [Addr.setPort, if_neg hg], ?_, rfl, ⟨rfl, rfl, rfl, rfl, rfl, rfl, rfl, rfl, rfl, rfl, rfl⟩, ?_⟩
  · simp only [Addr.getPort, swap16_swap16, hp]
  · simp only [Addr.getIpv6]
    have : (swap16 (BitVec.ofInt 16 (n : Int))).toNat = n % 256 * 256 + n / 256 := by
      unfold swap16
      rw [append8_toNat, BitVec.toNat_setWidth, BitVec.toNat_setWidth, BitVec.toNat_ushiftRight, hp,
        Nat.shiftRight_eq_div_pow]
      omega
    rw [this]
    omega

/-- C15: any other integer is refused and nothing changes. -/
theorem C15_set_port_refused (a : Addr) (n : Int) (h : n < 0 ∨ n > 65535) :
    a.setPort n = (a, .throw .invalidArgument) := by
  have hg : n > 65535 ∨ n < 0 := h.symm
  simp [Addr.setPort, hg]

example : ∃ n : Int, IsCInt n ∧ (n < 0 ∨ n > 65535) := ⟨65536, by decide, by decide⟩

theorem sameButIp_refl (a : Addr) : SameButIp a a := ⟨rfl, rfl, rfl, rfl, rfl, rfl, rfl, rfl, rfl, rfl, rfl⟩

theorem addAssign_frame (a : Addr) (n : Int) : SameButIp a (Addr.addAssign n a).1 := by
  unfold Addr.addAssign
  by_cases hn : n < 0
  · rw [if_pos hn]
    cases Addr.negOffset n with
    | ok o => exact C03_from_uint128_frame ..
    | throw e => exact sameButIp_refl a
    | ub w => exact sameButIp_refl a
  · rw [if_neg hn]; exact C03_from_uint128_frame ..

theorem subAssign_frame (a : Addr) (n : Int) : SameButIp a (Addr.subAssign n a).1 := by
  unfold Addr.subAssign
  by_cases hn : n < 0
  · rw [if_pos hn]
    cases Addr.negOffset n with
    | ok o => exact C03_from_uint128_frame ..
    | throw e => exact sameButIp_refl a
    | ub w => exact sameButIp_refl a
  · rw [if_neg hn]; exact C03_from_uint128_frame ..

/-- `true` for the address arithmetic and the mask operations. -/
def AddrOp.isArithOrMask : AddrOp → Bool
  | .applyMask _ | .ipFromUint128 _ | .preInc | .postInc | .preDec | .postDec | .addAssign _ | .subAssign _
  | .setMask _ | .setMaskCount _ | .setMaskDefined _ => true
  | _ => false

/-- C15: a port survives any sequence of address arithmetic and mask operations. -/
theorem C15_port_survives (ops : List AddrOp) (h : ∀ op ∈ ops, op.isArithOrMask = true) (a : Addr) :
    (AddrOp.runAll ops a).getPort = a.getPort ∧ (AddrOp.runAll ops a).portDefined = a.portDefined := by
  induction ops generalizing a with
  | nil => exact ⟨rfl, rfl⟩
  | cons op ops ih =>
    have h1 : (op.run a).1.address.port = a.address.port ∧ (op.run a).1.portDefined = a.portDefined := by
      have hop := h op (by simp)
      have frame : ∀ b, SameButIp a b → b.address.port = a.address.port ∧ b.portDefined = a.portDefined :=
        fun b hb => ⟨hb.port, hb.portDefined⟩
      cases op with
      | applyMask i => exact frame _ (sameButIp_setBytes ..)
      | ipFromUint128 u => exact frame _ (C03_from_uint128_frame ..)
      | preInc => exact frame _ (C03_from_uint128_frame ..)
      | postInc => exact frame _ (C03_from_uint128_frame ..)
      | preDec => exact frame _ (C03_from_uint128_frame ..)
      | postDec => exact frame _ (C03_from_uint128_frame ..)
      | addAssign n => exact frame _ (addAssign_frame a n)
      | subAssign n => exact frame _ (subAssign_frame a n)
      | setMask m => exact ⟨rfl, rfl⟩
      | setMaskDefined d => exact ⟨rfl, rfl⟩
      | setMaskCount n =>
        simp only [AddrOp.run, Addr.setMaskCount]
        generalize (if a.isIpv4 = true then (96 : Int) else 0) = m
        split <;> exact ⟨rfl, rfl⟩
      | _ => simp [AddrOp.isArithOrMask] at hop
    have h2 := ih (fun op' hop' => h op' (by simp [hop'])) (op.run a).1
    rw [AddrOp.runAll]
    refine ⟨h2.1.trans ?_, h2.2.trans h1.2⟩
    simp only [Addr.getPort, h1.1]

example : (AddrOp.runAll [.addAssign 5, .setMaskCount 104, .applyMask true, .preInc]
    ((sampleV4 10 0 0 1).setPort 8080).1).getPort = 8080 := by decide +kernel

/-! ## C16

The claim is that on a numeric string `set_port(char const *)` stores the number written or refuses it. It is false: the 64
bit number is narrowed to `int` first. -/

/-- The claim of C16; `p` is the number written. -/
def C16_claim : Prop :=
  ∀ (a a' : Addr) (p : Int) (sv : Option (BitVec 16)) (r : Bool), -(2 ^ 63) ≤ p → p < 2 ^ 63 →
    a.setPortStr (some p) sv = (a', .ok r) → (a'.getPort : Int) = p

/-- C16 is false: `set_port("4294967376")` succeeds and stores port 80. -/
theorem C16_claim_fails : ¬ C16_claim := by
  intro h
  have := h Addr.default (Addr.default.setPort 80).1 4294967376 none true (by decide) (by decide) (by decide +kernel)
  revert this
  decide +kernel

theorem toCInt_range (p : Int) : IsCInt (Addr.toCInt p) := by
  have h1 := BitVec.toInt_lt (x := BitVec.ofInt 32 p)
  have h2 := BitVec.le_toInt (x := BitVec.ofInt 32 p)
  unfold IsCInt Addr.toCInt
  omega

theorem toCInt_self (p : Int) (h : IsCInt p) : Addr.toCInt p = p := by
  obtain ⟨h1, h2⟩ := h
  unfold Addr.toCInt
  rw [BitVec.toInt_ofInt, Int.bmod]
  split <;> omega

/-- C16: what is stored, for every 64 bit number: the number is taken modulo `2^32`, accepted when this is at most 65535
and refused with the object unchanged otherwise. -/
theorem C16_set_port_string_exact (a : Addr) (p : Int) (sv : Option (BitVec 16)) :
    (p % 2 ^ 32 ≤ 65535 → ∃ a', a.setPortStr (some p) sv = (a', .ok true) ∧ (a'.getPort : Int) = p % 2 ^ 32
        ∧ a'.portDefined = true ∧ SameButPort a a')
      ∧ (65535 < p % 2 ^ 32 → a.setPortStr (some p) sv = (a, .throw .invalidArgument)) := by
  have hc : Addr.toCInt p = if p % 2 ^ 32 < 2 ^ 31 then p % 2 ^ 32 else p % 2 ^ 32 - 2 ^ 32 := by
    unfold Addr.toCInt
    rw [BitVec.toInt_ofInt, Int.bmod]
    split <;> split <;> omega
  constructor
  · intro h
    have hc' : Addr.toCInt p = ((p % 2 ^ 32).toNat : Int) := by rw [hc, if_pos (by omega)]; omega
    obtain ⟨a', h1, h2, h3, h4, _⟩ := C15_set_port a (p % 2 ^ 32).toNat (by omega)
    refine ⟨a', ?_, by omega, h3, h4⟩
    simp only [Addr.setPortStr, hc', h1]
  · intro h
    have : Addr.toCInt p < 0 ∨ Addr.toCInt p > 65535 := by rw [hc]; split <;> omega
    simp only [Addr.setPortStr, C15_set_port_refused a _ this]

/-- C16, partial: for the numbers which fit an `int` the claim holds. Missing: the other 64 bit numbers, for which it is
false, see `C16_claim_fails`. -/
theorem C16_set_port_string_partial (a : Addr) (p : Int) (sv : Option (BitVec 16)) (h : IsCInt p) :
    (0 ≤ p → p ≤ 65535 → ∃ a', a.setPortStr (some p) sv = (a', .ok true) ∧ (a'.getPort : Int) = p ∧ a'.portDefined = true
        ∧ SameButPort a a')
      ∧ (p < 0 ∨ p > 65535 → a.setPortStr (some p) sv = (a, .throw .invalidArgument)) := by
  obtain ⟨h1, h2⟩ := C16_set_port_string_exact a p sv
  obtain ⟨hl, hr⟩ := h
  constructor
  · intro h0 h3
    have e : p % 2 ^ 32 = p := by omega
    rw [e] at h1
    exact h1 h3
  · intro h3
    exact h2 (by omega)

example : IsCInt 443 ∧ IsCInt (-1) ∧ IsCInt 65536 := by decide

/-- C16: a service name stores the port the services database gives, an unknown name stores nothing and is reported by the
returned value. -/
theorem C16_set_port_service (a : Addr) :
    (∀ p : BitVec 16, ∃ a', a.setPortStr none (some p) = (a', .ok true) ∧ a'.getPort = p.toNat ∧ a'.portDefined = true)
      ∧ a.setPortStr none none = (a, .ok false) := by
  refine ⟨fun p => ?_, rfl⟩
  obtain ⟨a', h1, h2, h3, _⟩ := C15_set_port a p.toNat (by have := p.isLt; omega)
  exact ⟨a', by simp only [Addr.setPortStr, h1], h2, h3⟩

/-! ## C17 -/

/-- The objects a program can hold: constructed, changed by any public function with any outcome, or computed from another
one (a copy of an object is that object). -/
inductive Reach : Addr → Prop
  | default : Reach Addr.default
  | ofIn {s : SockaddrIn} {a : Addr} : Addr.ofIn s = .ok a → Reach a
  | ofIn6 {s : SockaddrIn6} {a : Addr} : Addr.ofIn6 s = .ok a → Reach a
  | step {a : Addr} (op : AddrOp) : Reach a → Reach (op.run a).1
  | add {a b : Addr} {n : Int} : Reach a → a.add n = .ok b → Reach b
  | sub {a b : Addr} {n : Int} : Reach a → a.sub n = .ok b → Reach b

/-- The structural invariant: the family is `AF_INET6`, the protocol IP, TCP or UDP. -/
def StructInv (a : Addr) : Prop := a.getIpv6.family = 10 ∧ (a.protocol = 0 ∨ a.protocol = 6 ∨ a.protocol = 17)

instance (a : Addr) : Decidable (StructInv a) := inferInstanceAs (Decidable (_ ∧ _))

theorem structInv_congr {a b : Addr} (h : StructInv a) (h1 : b.address.family = a.address.family)
    (h2 : b.protocol = a.protocol) : StructInv b := by
  unfold StructInv Addr.getIpv6 at *
  rw [h1, h2]; exact h

theorem structInv_sameButIp {a b : Addr} (h : StructInv a) (hb : SameButIp a b) : StructInv b :=
  structInv_congr h hb.family hb.protocol

theorem setIpv4_struct {a : Addr} (s : SockaddrIn) (h : StructInv a) : StructInv (Addr.setIpv4 s a).1 := by
  unfold Addr.setIpv4
  split
  · exact h
  · exact ⟨rfl, h.2⟩

theorem setIpv6_struct {a : Addr} (s : SockaddrIn6) (h : StructInv a) : StructInv (Addr.setIpv6 s a).1 := by
  unfold Addr.setIpv6
  split
  · exact h
  · rename_i hf
    refine ⟨?_, h.2⟩
    exact Decidable.of_not_not hf

theorem setType_struct {a : Addr} (t : Option (BitVec 32)) (h : StructInv a) :
    StructInv (Addr.setTypeFromSocket t a).1 := by
  unfold Addr.setTypeFromSocket
  repeat' split
  · exact h
  · exact ⟨h.1, .inr (.inl rfl)⟩
  · exact ⟨h.1, .inr (.inr rfl)⟩
  · exact h

theorem setFromSocket_struct {a : Addr} (s : Int) (peer : Bool) (info : SocketInfo) (h : StructInv a) :
    StructInv (Addr.setFromSocket s peer info a).1 := by
  unfold Addr.setFromSocket
  split
  · exact h
  · split
    · exact h
    · exact bind_inv StructInv _ _ _ (fun _ h => setIpv4_struct _ h) (fun _ _ h => setType_struct _ h) h
    · exact bind_inv StructInv _ _ _ (fun _ h => setIpv6_struct _ h) (fun _ _ h => setType_struct _ h) h
    · exact h

theorem setPort_struct {a : Addr} (p : Int) (h : StructInv a) : StructInv (Addr.setPort p a).1 := by
  unfold Addr.setPort
  split
  · exact h
  · exact structInv_congr h rfl rfl

theorem setProtocol_struct {a : Addr} (p : Int) (h : StructInv a) : StructInv (Addr.setProtocol p a).1 := by
  unfold Addr.setProtocol
  split
  · rename_i hp
    split
    · exact ⟨h.1, hp⟩
    · exact h
  · exact h

theorem addAssign_struct {a : Addr} (n : Int) (h : StructInv a) : StructInv (Addr.addAssign n a).1 :=
  structInv_sameButIp h (addAssign_frame a n)

theorem subAssign_struct {a : Addr} (n : Int) (h : StructInv a) : StructInv (Addr.subAssign n a).1 :=
  structInv_sameButIp h (subAssign_frame a n)

theorem run_struct (op : AddrOp) (a : Addr) (h : StructInv a) : StructInv (op.run a).1 := by
  cases op with
  | setInterface s => exact structInv_congr h rfl rfl
  | setHostname s => exact structInv_congr h rfl rfl
  | setFromSocket s peer info => exact setFromSocket_struct s peer info h
  | setIpv4 s => exact setIpv4_struct s h
  | setIpv4Loopback => exact setIpv4_struct _ h
  | setIpv6 s => exact setIpv6_struct s h
  | setIpv6Loopback => exact setIpv6_struct _ h
  | setPortDefined d => exact structInv_congr h rfl rfl
  | setPortStr c sv =>
    simp only [AddrOp.run, drop_fst]
    rcases setPortStr_fst c sv a with e | ⟨p, e⟩
    · rw [e]; exact h
    · rw [e]; exact setPort_struct p h
  | setPort p => exact setPort_struct p h
  | setProtocolDefined d => exact structInv_congr h rfl rfl
  | setProtocolStr f =>
    simp only [AddrOp.run, Addr.setProtocolStr]
    split
    · exact h
    · exact h
    · exact setProtocol_struct _ h
  | setProtocol p => exact setProtocol_struct p h
  | setMaskDefined d => exact structInv_congr h rfl rfl
  | setMask m => exact structInv_congr h rfl rfl
  | setMaskCount n =>
    simp only [AddrOp.run, Addr.setMaskCount]
    generalize (if a.isIpv4 = true then (96 : Int) else 0) = m
    split
    · exact h
    · exact structInv_congr h rfl rfl
  | askType =>
    simp only [AddrOp.run, Addr.getNetworkType]
    split
    · exact structInv_congr h rfl rfl
    · exact h
  | bind s answer info =>
    simp only [AddrOp.run, drop_fst, Addr.bind]
    split
    · split
      · exact bind_inv StructInv _ _ _ (fun _ h => setFromSocket_struct _ _ _ h) (fun _ _ h => h) h
      · exact h
    · exact h
    · exact h
  | recvfrom s info answer f4 f6 =>
    simp only [AddrOp.run, drop_fst, Addr.recvfrom]
    refine bind_inv StructInv _ _ _ (fun _ h => setFromSocket_struct _ _ _ h) ?_ h
    intro _ b hb
    split
    · exact hb
    · split
      · split
        · exact bind_inv StructInv _ _ _ (fun _ h => setIpv4_struct _ h) (fun _ _ h => h) hb
        · exact hb
      · split
        · exact bind_inv StructInv _ _ _ (fun _ h => setIpv6_struct _ h) (fun _ _ h => h) hb
        · exact hb
  | applyMask i => exact structInv_sameButIp h (sameButIp_setBytes ..)
  | ipFromUint128 u => exact structInv_sameButIp h (C03_from_uint128_frame ..)
  | preInc => exact structInv_sameButIp h (C03_from_uint128_frame ..)
  | postInc => exact structInv_sameButIp h (C03_from_uint128_frame ..)
  | preDec => exact structInv_sameButIp h (C03_from_uint128_frame ..)
  | postDec => exact structInv_sameButIp h (C03_from_uint128_frame ..)
  | addAssign n => exact addAssign_struct n h
  | subAssign n => exact subAssign_struct n h

theorem add_ok_frame {a b : Addr} {n : Int} (h : a.add n = .ok b) : SameButIp a b := by
  unfold Addr.add at h
  split at h
  · cases hn : Addr.negOffset n with
    | ok o => rw [hn] at h; cases h; exact C03_from_uint128_frame ..
    | throw e => rw [hn] at h; cases h
    | ub w => rw [hn] at h; cases h
  · cases h; exact C03_from_uint128_frame ..

theorem sub_ok_frame {a b : Addr} {n : Int} (h : a.sub n = .ok b) : SameButIp a b := by
  unfold Addr.sub at h
  split at h
  · cases hn : Addr.negOffset n with
    | ok o => rw [hn] at h; cases h; exact C03_from_uint128_frame ..
    | throw e => rw [hn] at h; cases h
    | ub w => rw [hn] at h; cases h
  · cases h; exact C03_from_uint128_frame ..

/-- C17: every object a program can hold has the structural invariant. -/
theorem C17_structural_invariant (a : Addr) (h : Reach a) : StructInv a := by
  have hd : StructInv Addr.default := ⟨rfl, .inr (.inl rfl)⟩
  induction h with
  | default => exact hd
  | @ofIn s a h =>
    have := setIpv4_struct s hd
    unfold Addr.ofIn at h
    split at h <;> rename_i e
    · rw [e] at this; cases h; exact this
    · cases h
    · cases h
  | @ofIn6 s a h =>
    have := setIpv6_struct s hd
    unfold Addr.ofIn6 at h
    split at h <;> rename_i e
    · rw [e] at this; cases h; exact this
    · cases h
    · cases h
  | step op _ ih => exact run_struct op _ ih
  | add _ h ih => exact structInv_sameButIp ih (add_ok_frame h)
  | sub _ h ih => exact structInv_sameButIp ih (sub_ok_frame h)

/-- C17: for a history on one object, of any length and with failing calls. -/
theorem C17_history (ops : List AddrOp) : StructInv (AddrOp.runAll ops Addr.default) := by
  have : ∀ (ops : List AddrOp) (a : Addr), StructInv a → StructInv (AddrOp.runAll ops a) := by
    intro ops
    induction ops with
    | nil => exact fun a h => h
    | cons op ops ih => exact fun a h => ih _ (run_struct op a h)
  exact this ops _ ⟨rfl, .inr (.inl rfl)⟩

/-- C17: therefore `create_socket()` always asks the kernel for a socket, of the right kind, and returns its answer. -/
theorem C17_create_socket (a : Addr) (h : Reach a) (flags : BitVec 32) (answer : Int) :
    (a.createSocket flags answer).2 = answer
      ∧ ∃ family type rest, (a.createSocket flags answer).1
          = SysCall.socket family type (if a.protocol = 17 then 17 else 6) :: rest
        ∧ type &&& 0xf = (if a.protocol = 17 then 2 else 1) := by
  obtain ⟨_, hp⟩ := C17_structural_invariant a h
  have hfl : ∀ k : BitVec 32, (k = 1 ∨ k = 2) → (k ||| ((if flags &&& 0x01 ≠ 0 then SOCK_CLOEXEC else 0)
      ||| (if flags &&& 0x02 ≠ 0 then SOCK_NONBLOCK else 0))) &&& 0xf = k := by
    intro k hk
    rcases hk with rfl | rfl <;> split <;> split <;> decide
  rcases hp with hp | hp | hp
  · refine ⟨by simp [Addr.createSocket, hp, IPPROTO_IP], ?_⟩
    refine ⟨_, _, _, by simp only [Addr.createSocket, hp, IPPROTO_IP, IPPROTO_TCP, true_or, if_true]; rfl, ?_⟩
    rw [hp]; exact hfl 1 (.inl rfl)
  · refine ⟨by simp [Addr.createSocket, hp, IPPROTO_TCP], ?_⟩
    refine ⟨_, _, _, by simp only [Addr.createSocket, hp, IPPROTO_IP, IPPROTO_TCP, or_true, if_true]; rfl, ?_⟩
    rw [hp]; exact hfl 1 (.inl rfl)
  · refine ⟨by simp [Addr.createSocket, hp, IPPROTO_TCP, IPPROTO_IP, IPPROTO_UDP], ?_⟩
    refine ⟨_, _, _, by
      simp only [Addr.createSocket, hp, IPPROTO_IP, IPPROTO_TCP, IPPROTO_UDP, Int.reduceEq, or_self, if_false, if_true]; rfl, ?_⟩
    rw [hp]; exact hfl 2 (.inr rfl)

example : Reach (AddrOp.run (.setFromSocket 3 true { sockName := none, peerName := some (.inet 5 #v[1, 2, 3, 4] (Vector.replicate 8 0)), type := some 2 })
    (AddrOp.run (.setProtocol 99) Addr.default).1).1 := .step _ (.step _ .default)

/-! ## C18

The claim is that after a successful `set_protocol(p)` the protocol is `p` and `is_protocol_defined()` is true. The second
part is false when the object already had that protocol. -/

/-- The claim of C18. -/
def C18_claim : Prop := ∀ (a a' : Addr) (p : Int), a.setProtocol p = (a', .ok ()) → a'.protocol = p ∧ a'.protocolDefined = true

/-- C18 is false: setting TCP on a new object, whose protocol is TCP but is not marked as defined. -/
theorem C18_claim_fails : ¬ C18_claim := by
  intro h
  have := h Addr.default Addr.default 6 rfl
  revert this; decide

/-- C18, partial: the protocol is always `p` after a success, exactly the three protocols are accepted, the protocol is
marked as defined if `p` differs from the previous protocol or if it was so before, and a refused protocol changes nothing.
Missing: marking as defined when `p` is the protocol the object has, where the claim is false, see `C18_claim_fails`. -/
theorem C18_set_protocol_partial (a : Addr) (p : Int) :
    (p = 0 ∨ p = 6 ∨ p = 17 → ∃ a', a.setProtocol p = (a', .ok ()) ∧ a'.protocol = p
        ∧ (a'.protocolDefined = true ↔ p ≠ a.protocol ∨ a.protocolDefined = true)
        ∧ a'.address = a.address ∧ a'.mask = a.mask ∧ a'.portDefined = a.portDefined ∧ a'.maskDefined = a.maskDefined
        ∧ a'.interface = a.interface ∧ a'.hostname = a.hostname)
      ∧ (¬ (p = 0 ∨ p = 6 ∨ p = 17) → a.setProtocol p = (a, .throw .invalidArgument)) := by
  constructor
  · intro h
    have h' : p = IPPROTO_IP ∨ p = IPPROTO_TCP ∨ p = IPPROTO_UDP := h
    unfold Addr.setProtocol
    rw [if_pos h']
    by_cases hp : p = a.protocol
    · rw [if_neg (fun h => h hp)]
      exact ⟨a, rfl, hp.symm, by simp [hp], rfl, rfl, rfl, rfl, rfl, rfl⟩
    · rw [if_pos hp]
      exact ⟨_, rfl, rfl, by simp [hp, Addr.addressChanged], rfl, rfl, rfl, rfl, rfl, rfl⟩
  · intro h
    have h' : ¬ (p = IPPROTO_IP ∨ p = IPPROTO_TCP ∨ p = IPPROTO_UDP) := h
    unfold Addr.setProtocol
    rw [if_neg h']

example : ∃ p : Int, (p = 0 ∨ p = 6 ∨ p = 17) ∧ p ≠ Addr.default.protocol := ⟨17, by decide, by decide⟩

/-! ## C19

The claim is that a mutator which throws leaves the object as it was. It is false of `set_from_socket()` (hence of `bind()`
and `recvfrom()`, which call it). -/

/-- The claim of C19. -/
def C19_claim : Prop := ∀ (op : AddrOp) (a : Addr) (e : Exc), (op.run a).2 = .throw e → (op.run a).1 = a

/-- C19 is false: on a raw socket (type 3) `set_from_socket()` has stored the address when it throws. -/
theorem C19_claim_fails : ¬ C19_claim := by
  intro h
  have := h (.setFromSocket 3 true { sockName := none, peerName := some (.inet 5 #v[1, 2, 3, 4] (Vector.replicate 8 0)), type := some 3 })
    Addr.default .invalidState (by decide +kernel)
  revert this; decide +kernel

/-- `true` for the mutators which ask the kernel about a socket. -/
def AddrOp.usesSocket : AddrOp → Bool
  | .setFromSocket .. | .bind .. | .recvfrom .. => true
  | _ => false

theorem setPort_throw {p : Int} {a : Addr} {e : Exc} (h : (Addr.setPort p a).2 = .throw e) : (Addr.setPort p a).1 = a := by
  unfold Addr.setPort at *
  split <;> rename_i h'
  · rfl
  · rw [if_neg h'] at h; cases h

theorem setProtocol_throw {p : Int} {a : Addr} {e : Exc} (h : (Addr.setProtocol p a).2 = .throw e) :
    (Addr.setProtocol p a).1 = a := by
  unfold Addr.setProtocol at *
  split <;> rename_i h'
  · rw [if_pos h'] at h
    split <;> rename_i h''
    · rw [if_pos h''] at h; cases h
    · rfl
  · rfl

theorem setIpv4_throw {s : SockaddrIn} {a : Addr} {e : Exc} (h : (Addr.setIpv4 s a).2 = .throw e) : (Addr.setIpv4 s a).1 = a := by
  unfold Addr.setIpv4 at *
  split <;> rename_i h'
  · rfl
  · rw [if_neg h'] at h; cases h

theorem setIpv6_throw {s : SockaddrIn6} {a : Addr} {e : Exc} (h : (Addr.setIpv6 s a).2 = .throw e) : (Addr.setIpv6 s a).1 = a := by
  unfold Addr.setIpv6 at *
  split <;> rename_i h'
  · rfl
  · rw [if_neg h'] at h; cases h

theorem negOffset_not_throw (n : Int) (e : Exc) : Addr.negOffset n ≠ .throw e := by
  unfold Addr.negOffset
  split <;> simp

/-- C19, partial: every mutator but the three which ask the kernel about a socket leaves the whole object unchanged when it
throws. Missing: `set_from_socket()`, `bind()` and `recvfrom()`, for which the claim is false (`C19_claim_fails`) and for
which `C19_set_from_socket_partial` tells what is kept. -/
theorem C19_failure_unchanged_partial (op : AddrOp) (hop : op.usesSocket = false) (a : Addr) (e : Exc)
    (h : (op.run a).2 = .throw e) : (op.run a).1 = a := by
  cases op with
  | setFromSocket s peer info => simp [AddrOp.usesSocket] at hop
  | bind s answer info => simp [AddrOp.usesSocket] at hop
  | recvfrom s info answer f4 f6 => simp [AddrOp.usesSocket] at hop
  | setIpv4 s => exact setIpv4_throw h
  | setIpv4Loopback => exact setIpv4_throw (e := e) h
  | setIpv6 s => exact setIpv6_throw h
  | setIpv6Loopback => exact setIpv6_throw (e := e) h
  | setPortStr c sv =>
    simp only [AddrOp.run, drop_fst]
    have h' : (Addr.setPortStr c sv a).2 = .throw e := by
      simp only [AddrOp.run] at h
      generalize Addr.setPortStr c sv a = r at h ⊢
      obtain ⟨a', r'⟩ := r
      cases r' <;> simp_all [AddrOp.drop]
    unfold Addr.setPortStr at h' ⊢
    cases c with
    | some p =>
      dsimp only at h' ⊢
      have := @setPort_throw (Addr.toCInt p) a
      generalize Addr.setPort (Addr.toCInt p) a = r at h' this ⊢
      obtain ⟨a', r'⟩ := r
      cases r' with
      | ok x => cases h'
      | throw e' => exact this rfl
      | ub w => cases h'
    | none =>
      cases sv with
      | none => rfl
      | some p =>
        dsimp only at h' ⊢
        have := @setPort_throw p.toNat a
        generalize Addr.setPort p.toNat a = r at h' this ⊢
        obtain ⟨a', r'⟩ := r
        cases r' with
        | ok x => cases h'
        | throw e' => exact this rfl
        | ub w => cases h'
  | setPort p => exact setPort_throw h
  | setProtocolStr f =>
    simp only [AddrOp.run, Addr.setProtocolStr] at h ⊢
    split
    · rfl
    · rfl
    · exact setProtocol_throw h
  | setProtocol p => exact setProtocol_throw h
  | setMaskCount n =>
    simp only [AddrOp.run, Addr.setMaskCount] at h ⊢
    generalize (if a.isIpv4 = true then (96 : Int) else 0) = m at h ⊢
    split <;> rename_i h'
    · rfl
    · rw [if_neg h'] at h; cases h
  | addAssign n =>
    simp only [AddrOp.run, Addr.addAssign] at h ⊢
    by_cases hn : n < 0
    · rw [if_pos hn] at h ⊢
      cases ho : Addr.negOffset n with
      | ok o => rw [ho] at h; cases h
      | throw e => exact absurd ho (negOffset_not_throw n e)
      | ub w => rfl
    · rw [if_neg hn] at h; cases h
  | subAssign n =>
    simp only [AddrOp.run, Addr.subAssign] at h ⊢
    by_cases hn : n < 0
    · rw [if_pos hn] at h ⊢
      cases ho : Addr.negOffset n with
      | ok o => rw [ho] at h; cases h
      | throw e => exact absurd ho (negOffset_not_throw n e)
      | ub w => rfl
    · rw [if_neg hn] at h; cases h
  | setInterface s => cases h
  | setHostname s => cases h
  | setPortDefined d => cases h
  | setProtocolDefined d => cases h
  | setMaskDefined d => cases h
  | setMask m => cases h
  | askType => cases h
  | applyMask i => cases h
  | ipFromUint128 u => cases h
  | preInc => cases h
  | postInc => cases h
  | preDec => cases h
  | postDec => cases h

example : (AddrOp.run (.setMaskCount 50) (sampleV4 10 0 0 1)).2 = .throw .outOfRange ∧ (AddrOp.setMaskCount 50).usesSocket = false := by
  decide +kernel

/-- C19, partial: when `set_from_socket()` throws, at most the socket address was changed, and nothing was if the socket is
negative, if the kernel did not give a name or if the name is not an IP one. -/
theorem C19_set_from_socket_partial (a : Addr) (s : Int) (peer : Bool) (info : SocketInfo) (e : Exc)
    (h : (a.setFromSocket s peer info).2 = .throw e) :
    SameButAddress a (a.setFromSocket s peer info).1
      ∧ ((s < 0 ∨ (if peer then info.peerName else info.sockName) = none
            ∨ (if peer then info.peerName else info.sockName) = some .other) → (a.setFromSocket s peer info).1 = a) := by
  have refl : SameButAddress a a := ⟨rfl, rfl, rfl, rfl, rfl, rfl, rfl⟩
  have ty : ∀ (b : Addr), SameButAddress a b → (Addr.setTypeFromSocket info.type b).2 = .throw e →
      SameButAddress a (Addr.setTypeFromSocket info.type b).1 := by
    intro b hb hthrow
    unfold Addr.setTypeFromSocket at hthrow ⊢
    split
    · exact hb
    · rename_i t ht
      rw [ht] at hthrow
      dsimp only at hthrow
      by_cases h1 : t = SOCK_STREAM
      · rw [if_pos h1] at hthrow; cases hthrow
      · by_cases h2 : t = SOCK_DGRAM
        · rw [if_neg h1, if_pos h2] at hthrow; cases hthrow
        · rw [if_neg h1, if_neg h2]; exact hb
  by_cases hs : s < 0
  · have : a.setFromSocket s peer info = (a, .throw .invalidArgument) := by simp only [Addr.setFromSocket, if_pos hs]
    rw [this]; exact ⟨refl, fun _ => rfl⟩
  · simp only [Addr.setFromSocket, if_neg hs] at h ⊢
    cases hn : (if peer = true then info.peerName else info.sockName) with
    | none => exact ⟨refl, fun _ => rfl⟩
    | some st =>
      rw [hn] at h
      cases st with
      | inet port addr zero =>
        obtain ⟨a', h1, _, _, _, _, _, _, _, _, h2⟩ := C01_ipv4_roundtrip a { family := AF_INET, port := port, addr := addr, zero := zero } rfl
        simp only [SM.bind, h1] at h ⊢
        exact ⟨ty a' h2 h, by simp [hs]⟩
      | inet6 port flowinfo addr scope =>
        obtain ⟨a', h1, _, h2⟩ := C02_ipv6_roundtrip a { family := AF_INET6, port := port, flowinfo := flowinfo, addr := addr, scope := scope } rfl
        simp only [SM.bind, h1] at h ⊢
        exact ⟨ty a' h2 h, by simp [hs]⟩
      | other => exact ⟨refl, fun _ => rfl⟩

example : (Addr.default.setFromSocket 3 false { sockName := some .other, peerName := none, type := none }).2 = .throw .invalidState := by
  decide +kernel

/-! ## C20 -/

/-- The family of the structure given to the kernel. -/
def SockArg.family : SockArg → BitVec 16
  | .in4 s => s.family
  | .in6 s => s.family

/-- The size of the structure given to the kernel. -/
def SockArg.size : SockArg → Nat
  | .in4 _ => 16
  | .in6 _ => 28

/-- The port field of the structure given to the kernel. -/
def SockArg.port : SockArg → BitVec 16
  | .in4 s => s.port
  | .in6 s => s.port

/-- The number of the address given to the kernel. -/
def SockArg.ip : SockArg → Nat
  | .in4 s => v4 s.addr[0].toNat s.addr[1].toNat s.addr[2].toNat s.addr[3].toNat
  | .in6 s => Spec.ip s.addr

/-- The structure is one of `family` and holds the port and the address of `a`. -/
def GoodArg (a : Addr) (family : BitVec 16) (name : SockArg) (len : Nat) : Prop :=
  name.family = family ∧ len = name.size ∧ name.port = a.getIpv6.port ∧ name.ip = Spec.ip a.getIpv6.addr

theorem goodArg_cases (a : Addr) (h : StructInv a) :
    (a.isIpv4 = true → ∃ s, a.getIpv4 = .ok s ∧ GoodArg a 2 (.in4 s) sizeofIn)
      ∧ (a.isIpv4 = false → GoodArg a 10 (.in6 a.address) sizeofIn6) := by
  obtain ⟨h1, h2, _⟩ := C02_get_ipv4_iff_mapped a
  constructor
  · intro h4
    obtain ⟨s, e, hf, hp, hip⟩ := h2 (h1.1 h4)
    exact ⟨s, e, hf, rfl, hp, hip.symm⟩
  · intro _
    exact ⟨h.1, rfl, rfl, rfl⟩

/-- C20: the family which `create_socket()` asks for is `get_family()`, and `connect()`, `bind()` and `sendto()` make at most
one call, with a structure of that family, of the matching size, holding the port and the address of the object. They never
throw. -/
theorem C20_socket_family (a : Addr) (h : Reach a) (flags : BitVec 32) (fd answer : Int) (buffer : List Byte) :
    (∃ type protocol rest, (a.createSocket flags answer).1 = SysCall.socket a.getFamily type protocol :: rest)
      ∧ (∃ r, (a.connect fd answer).2 = .ok r) ∧ (∃ r, (a.bindConst fd answer).2 = .ok r)
      ∧ (∃ r, (a.sendto fd buffer answer).2 = .ok r)
      ∧ ((a.connect fd answer).1 = [] ∧ a.protocol = 17
          ∨ ∃ name len, (a.connect fd answer).1 = [SysCall.connect fd name len] ∧ GoodArg a a.getFamily name len)
      ∧ (∃ name len, (a.bindConst fd answer).1 = [SysCall.bind fd name len] ∧ GoodArg a a.getFamily name len)
      ∧ ((a.sendto fd buffer answer).1 = [] ∧ a.protocol ≠ 17
          ∨ ∃ name len, (a.sendto fd buffer answer).1 = [SysCall.sendto fd buffer name len] ∧ GoodArg a a.getFamily name len) := by
  have hinv := C17_structural_invariant a h
  obtain ⟨hg4, hg6⟩ := goodArg_cases a hinv
  obtain ⟨_, hp⟩ := hinv
  have hsock : ∃ type protocol rest, (a.createSocket flags answer).1 = SysCall.socket a.getFamily type protocol :: rest := by
    unfold Addr.createSocket Addr.getFamily
    rcases hp with hp | hp | hp
    · simp only [hp, IPPROTO_IP, true_or, if_true]; exact ⟨_, _, _, rfl⟩
    · simp only [hp, IPPROTO_TCP, or_true, if_true]; exact ⟨_, _, _, rfl⟩
    · simp only [hp, IPPROTO_IP, IPPROTO_TCP, IPPROTO_UDP, Int.reduceEq, or_self, if_false, if_true]; exact ⟨_, _, _, rfl⟩
  refine ⟨hsock, ?_⟩
  by_cases h4 : a.isIpv4 = true
  · obtain ⟨s, hs, hgood⟩ := hg4 h4
    have hfam : a.getFamily = 2 := by simp [Addr.getFamily, h4, AF_INET]
    rw [hfam]
    rcases hp with hp | hp | hp
    all_goals simp [Addr.connect, Addr.bindConst, Addr.sendto, hp, h4, hs, IPPROTO_IP, IPPROTO_TCP, IPPROTO_UDP]
    all_goals exact ⟨_, _, ⟨rfl, rfl⟩, hgood⟩
  · have h4' : a.isIpv4 = false := by simpa using h4
    have hgood := hg6 h4'
    have hfam : a.getFamily = 10 := by simp [Addr.getFamily, h4', AF_INET6]
    rw [hfam]
    rcases hp with hp | hp | hp
    all_goals simp [Addr.connect, Addr.bindConst, Addr.sendto, hp, h4', IPPROTO_IP, IPPROTO_TCP, IPPROTO_UDP]
    all_goals exact ⟨_, _, ⟨rfl, rfl⟩, hgood⟩

example : Reach (AddrOp.run (.setProtocol 17) (AddrOp.run .setIpv4Loopback Addr.default).1).1
    ∧ (AddrOp.run .setIpv4Loopback Addr.default).1.getFamily = 2 := ⟨.step _ (.step _ .default), by decide +kernel⟩

/-- C20: what `create_socket()` asks for is exact: the type is a stream, or a datagram for UDP, with close-on-exec and non-blocking (bits
19 and 11 on Linux) exactly as they were asked for (flags 1 and 2), and the address is reused when this was asked for (flag 4), except
with UDP and without a socket. -/
theorem C20_socket_flags (a : Addr) (h : Reach a) (flags : BitVec 32) (answer : Int) :
    ∃ type, (a.createSocket flags answer).1 = SysCall.socket a.getFamily type (if a.protocol = 17 then 17 else 6)
          :: (if a.protocol ≠ 17 ∧ 0 ≤ answer ∧ flags.getLsbD 2 = true then [SysCall.setReuseAddr answer] else [])
      ∧ type.toNat = (if a.protocol = 17 then 2 else 1) + (if flags.getLsbD 0 = true then 2 ^ 19 else 0)
          + (if flags.getLsbD 1 = true then 2 ^ 11 else 0) := by
  obtain ⟨_, hp⟩ := C17_structural_invariant a h
  have bit : ∀ (k : Nat) (x : BitVec 32), (k < 32) → x = BitVec.twoPow 32 k → (flags &&& x ≠ 0 ↔ flags.getLsbD k = true) := by
    intro k x hk hx
    subst hx
    rw [BitVec.and_twoPow]
    cases flags.getLsbD k with
    | false => simp
    | true =>
      simp only [if_true, iff_true]
      intro h
      have := congrArg (fun y : BitVec 32 => y.getLsbD k) h
      simp [hk] at this
  have b0 := bit 0 0x01 (by decide) (by decide)
  have b1 := bit 1 0x02 (by decide) (by decide)
  have b2 := bit 2 0x04 (by decide) (by decide)
  have hfl : ∀ k : BitVec 32, (k = 1 ∨ k = 2) → (k ||| ((if flags &&& 0x01 ≠ 0 then SOCK_CLOEXEC else 0)
      ||| (if flags &&& 0x02 ≠ 0 then SOCK_NONBLOCK else 0))).toNat
        = k.toNat + (if flags.getLsbD 0 = true then 2 ^ 19 else 0) + (if flags.getLsbD 1 = true then 2 ^ 11 else 0) := by
    intro k hk
    simp only [b0, b1]
    rcases hk with rfl | rfl <;> split <;> split <;> decide
  have hf : (if a.isIpv4 = true then AF_INET else AF_INET6) = a.getFamily := rfl
  rcases hp with hp | hp | hp
  · refine ⟨1 ||| ((if flags &&& 0x01 ≠ 0 then SOCK_CLOEXEC else 0) ||| (if flags &&& 0x02 ≠ 0 then SOCK_NONBLOCK else 0)), ?_, ?_⟩
    rotate_left
    · rw [hp]; exact hfl 1 (.inl rfl)
    · simp only [Addr.createSocket, hp, IPPROTO_IP, IPPROTO_TCP, true_or, if_true, b2, hf]
      simp [SOCK_STREAM]
  · refine ⟨1 ||| ((if flags &&& 0x01 ≠ 0 then SOCK_CLOEXEC else 0) ||| (if flags &&& 0x02 ≠ 0 then SOCK_NONBLOCK else 0)), ?_, ?_⟩
    rotate_left
    · rw [hp]; exact hfl 1 (.inl rfl)
    · simp only [Addr.createSocket, hp, IPPROTO_IP, IPPROTO_TCP, or_true, if_true, b2, hf]
      simp [SOCK_STREAM]
  · refine ⟨2 ||| ((if flags &&& 0x01 ≠ 0 then SOCK_CLOEXEC else 0) ||| (if flags &&& 0x02 ≠ 0 then SOCK_NONBLOCK else 0)), ?_, ?_⟩
    rotate_left
    · rw [hp]; exact hfl 2 (.inr rfl)
    · simp only [Addr.createSocket, hp, IPPROTO_IP, IPPROTO_TCP, IPPROTO_UDP, Int.reduceEq, or_self, if_false, if_true, hf]
      simp [SOCK_DGRAM]

-- A TCP socket which closes on exec and whose address is reused.
example : (Addr.default.createSocket 5 3).1 = [SysCall.socket 10 0x80001 6, SysCall.setReuseAddr 3] := by decide +kernel

end Verif
