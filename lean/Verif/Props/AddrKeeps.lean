import Verif.Props.AddrState
import Verif.Props.AddrMask

/-!
# Property C120: what a new address is, and that each of its attributes changes only when it is set
-/

namespace Verif

open Spec

/-- What can be asked of an address. -/
inductive Attr
  | ip | port | portDefined | protocol | protocolDefined | mask | maskDefined | hostname | interface
  deriving DecidableEq

/-- The two addresses give the same answer. -/
def SameAttr (a b : Addr) : Attr → Prop
  | .ip => b.getIpv6.addr = a.getIpv6.addr ∧ b.getIpv6.flowinfo = a.getIpv6.flowinfo ∧ b.getIpv6.scope = a.getIpv6.scope
  | .port => b.getPort = a.getPort
  | .portDefined => b.portDefined = a.portDefined
  | .protocol => b.protocol = a.protocol
  | .protocolDefined => b.protocolDefined = a.protocolDefined
  | .mask => b.getMask = a.getMask
  | .maskDefined => b.maskDefined = a.maskDefined
  | .hostname => b.hostname = a.hostname
  | .interface => b.interface = a.interface

/-- The attributes which a call is meant to change. -/
def setsAttr : AddrOp → List Attr
  | .setInterface _ => [.interface]
  | .setHostname _ => [.hostname]
  | .setFromSocket _ _ _ | .bind _ _ _ | .recvfrom _ _ _ _ _ => [.ip, .port, .protocol]
  | .setIpv4 _ | .setIpv6 _ => [.ip, .port]
  | .setIpv4Loopback | .setIpv6Loopback => [.ip]
  | .setPortDefined _ => [.portDefined]
  | .setPortStr _ _ | .setPort _ => [.port, .portDefined]
  | .setProtocolDefined _ => [.protocolDefined]
  | .setProtocolStr _ | .setProtocol _ => [.protocol, .protocolDefined]
  | .setMaskDefined _ => [.maskDefined]
  | .setMask _ | .setMaskCount _ => [.mask, .maskDefined]
  | .applyMask _ | .ipFromUint128 _ => [.ip]
  | .askType => []
  | .preInc | .postInc | .preDec | .postDec | .addAssign _ | .subAssign _ => [.ip]

/-! ### The calls -/

/-- All attributes but these are kept. -/
def KeepsBut (s : List Attr) (a b : Addr) : Prop := ∀ x, x ∉ s → SameAttr a b x

theorem sameAttr_refl (a : Addr) (x : Attr) : SameAttr a a x := by cases x <;> first | rfl | exact ⟨rfl, rfl, rfl⟩

theorem sameAttr_trans {a b c : Addr} {x : Attr} (h : SameAttr a b x) (h' : SameAttr b c x) : SameAttr a c x := by
  cases x <;> first | exact Eq.trans h' h | exact ⟨h'.1.trans h.1, h'.2.1.trans h.2.1, h'.2.2.trans h.2.2⟩

theorem keepsBut_refl (s : List Attr) (a : Addr) : KeepsBut s a a := fun x _ => sameAttr_refl a x

theorem keepsBut_trans {s t u : List Attr} {a b c : Addr} (h : KeepsBut s a b) (h' : KeepsBut t b c) (hs : ∀ x ∈ s, x ∈ u) (ht : ∀ x ∈ t, x ∈ u) :
    KeepsBut u a c := fun x hx => sameAttr_trans (h x fun h1 => hx (hs x h1)) (h' x fun h1 => hx (ht x h1))

theorem keepsBut_ip {a b : Addr} (h : SameButIp a b) : KeepsBut [.ip] a b := by
  intro x hx
  cases x with
  | ip => exact absurd List.mem_cons_self hx
  | port => exact congrArg (fun p => (swap16 p).toNat) h.port
  | portDefined => exact h.portDefined
  | protocol => exact h.protocol
  | protocolDefined => exact h.protocolDefined
  | mask => exact h.mask
  | maskDefined => exact h.maskDefined
  | hostname => exact h.hostname
  | interface => exact h.interface

theorem setIpv4_keeps (s : SockaddrIn) (a : Addr) : KeepsBut [.ip, .port] a (Addr.setIpv4 s a).1 := by
  unfold Addr.setIpv4
  split
  · exact keepsBut_refl _ a
  · intro x hx
    cases x <;> first | first | rfl | exact ⟨rfl, rfl, rfl⟩ | exact absurd (by decide) hx

theorem setIpv6_keeps (s : SockaddrIn6) (a : Addr) : KeepsBut [.ip, .port] a (Addr.setIpv6 s a).1 := by
  unfold Addr.setIpv6
  split
  · exact keepsBut_refl _ a
  · intro x hx
    cases x <;> first | first | rfl | exact ⟨rfl, rfl, rfl⟩ | exact absurd (by decide) hx

theorem setType_keeps (t : Option (BitVec 32)) (a : Addr) : KeepsBut [.protocol] a (Addr.setTypeFromSocket t a).1 := by
  unfold Addr.setTypeFromSocket
  repeat' split
  · exact keepsBut_refl _ a
  · intro x hx
    cases x <;> first | first | rfl | exact ⟨rfl, rfl, rfl⟩ | exact absurd (by decide) hx
  · intro x hx
    cases x <;> first | first | rfl | exact ⟨rfl, rfl, rfl⟩ | exact absurd (by decide) hx
  · exact keepsBut_refl _ a

theorem setFromSocket_keeps (s : Int) (peer : Bool) (info : SocketInfo) (a : Addr) :
    KeepsBut [.ip, .port, .protocol] a (Addr.setFromSocket s peer info a).1 := by
  have hi (b c : Addr) (h : KeepsBut [.ip, .port] b c) (h' : KeepsBut [.ip, .port, .protocol] a b) : KeepsBut [.ip, .port, .protocol] a c :=
    keepsBut_trans h' h (fun _ h => h) (by decide)
  have ht (b : Addr) (h' : KeepsBut [.ip, .port, .protocol] a b) : KeepsBut [.ip, .port, .protocol] a (Addr.setTypeFromSocket info.type b).1 :=
    keepsBut_trans h' (setType_keeps _ b) (fun _ h => h) (by decide)
  unfold Addr.setFromSocket
  split
  · exact keepsBut_refl _ a
  · split
    · exact keepsBut_refl _ a
    · exact bind_inv (KeepsBut [.ip, .port, .protocol] a) _ _ _ (fun b h => hi b _ (setIpv4_keeps _ b) h) (fun _ b h => ht b h) (keepsBut_refl _ a)
    · exact bind_inv (KeepsBut [.ip, .port, .protocol] a) _ _ _ (fun b h => hi b _ (setIpv6_keeps _ b) h) (fun _ b h => ht b h) (keepsBut_refl _ a)
    · exact keepsBut_refl _ a

theorem setPort_keeps (p : Int) (a : Addr) : KeepsBut [.port, .portDefined] a (Addr.setPort p a).1 := by
  unfold Addr.setPort
  split
  · exact keepsBut_refl _ a
  · intro x hx
    cases x <;> first | first | rfl | exact ⟨rfl, rfl, rfl⟩ | exact absurd (by decide) hx

theorem setProtocol_keeps (p : Int) (a : Addr) : KeepsBut [.protocol, .protocolDefined] a (Addr.setProtocol p a).1 := by
  unfold Addr.setProtocol
  repeat' split
  · intro x hx
    cases x <;> first | first | rfl | exact ⟨rfl, rfl, rfl⟩ | exact absurd (by decide) hx
  · exact keepsBut_refl _ a
  · exact keepsBut_refl _ a

theorem loopback_port (a : Addr) : (Addr.setIpv4Loopback a).1.getPort = a.getPort ∧ (Addr.setIpv6Loopback a).1.getPort = a.getPort := by
  constructor
  · unfold Addr.setIpv4Loopback Addr.setIpv4
    rw [if_neg (fun h => h rfl)]
    rfl
  · unfold Addr.setIpv6Loopback Addr.setIpv6
    rw [if_neg (fun h => h rfl)]
    rfl

/-- C120: whatever the outcome of a call, it changes only the attributes it is meant to change. -/
theorem C120_call (op : AddrOp) (a : Addr) (x : Attr) (hx : x ∉ setsAttr op) : SameAttr a (op.run a).1 x := by
  revert x
  show KeepsBut (setsAttr op) a (op.run a).1
  cases op with
  | setInterface s => exact fun x hx => by cases x <;> first | first | rfl | exact ⟨rfl, rfl, rfl⟩ | exact absurd (by simp [setsAttr]) hx
  | setHostname s => exact fun x hx => by cases x <;> first | first | rfl | exact ⟨rfl, rfl, rfl⟩ | exact absurd (by simp [setsAttr]) hx
  | setFromSocket s peer info => exact setFromSocket_keeps s peer info a
  | setIpv4 s => exact setIpv4_keeps s a
  | setIpv4Loopback =>
    intro x hx
    by_cases hp : x = .port
    · subst hp
      exact (loopback_port a).1
    · exact setIpv4_keeps _ a x (by simpa using ⟨by simpa [setsAttr] using hx, hp⟩)
  | setIpv6 s => exact setIpv6_keeps s a
  | setIpv6Loopback =>
    intro x hx
    by_cases hp : x = .port
    · subst hp
      exact (loopback_port a).2
    · exact setIpv6_keeps _ a x (by simpa using ⟨by simpa [setsAttr] using hx, hp⟩)
  | setPortDefined d => exact fun x hx => by cases x <;> first | first | rfl | exact ⟨rfl, rfl, rfl⟩ | exact absurd (by simp [setsAttr]) hx
  | setPortStr c sv =>
    simp only [AddrOp.run, drop_fst]
    rcases setPortStr_fst c sv a with e | ⟨p, e⟩
    · rw [e]; exact keepsBut_refl _ a
    · rw [e]; exact setPort_keeps p a
  | setPort p => exact setPort_keeps p a
  | setProtocolDefined d => exact fun x hx => by cases x <;> first | first | rfl | exact ⟨rfl, rfl, rfl⟩ | exact absurd (by simp [setsAttr]) hx
  | setProtocolStr f =>
    simp only [AddrOp.run, Addr.setProtocolStr]
    split
    · exact keepsBut_refl _ a
    · exact keepsBut_refl _ a
    · exact setProtocol_keeps _ a
  | setProtocol p => exact setProtocol_keeps p a
  | setMaskDefined d => exact fun x hx => by cases x <;> first | first | rfl | exact ⟨rfl, rfl, rfl⟩ | exact absurd (by simp [setsAttr]) hx
  | setMask m => exact fun x hx => by cases x <;> first | first | rfl | exact ⟨rfl, rfl, rfl⟩ | exact absurd (by simp [setsAttr]) hx
  | setMaskCount n =>
    simp only [AddrOp.run, Addr.setMaskCount]
    generalize (if a.isIpv4 = true then (96 : Int) else 0) = m
    split
    · exact keepsBut_refl _ a
    · exact fun x hx => by cases x <;> first | first | rfl | exact ⟨rfl, rfl, rfl⟩ | exact absurd (by simp [setsAttr]) hx
  | askType =>
    simp only [AddrOp.run, Addr.getNetworkType]
    split
    · exact fun x hx => by cases x <;> first | rfl | exact ⟨rfl, rfl, rfl⟩
    · exact keepsBut_refl _ a
  | bind s answer info =>
    simp only [AddrOp.run, drop_fst, Addr.bind]
    split
    · split
      · exact bind_inv (KeepsBut [.ip, .port, .protocol] a) _ _ _
          (fun b h => keepsBut_trans h (setFromSocket_keeps _ _ _ b) (fun _ h => h) (fun _ h => h)) (fun _ _ h => h) (keepsBut_refl _ a)
      · exact keepsBut_refl _ a
    · exact keepsBut_refl _ a
    · exact keepsBut_refl _ a
  | recvfrom s info answer f4 f6 =>
    simp only [AddrOp.run, drop_fst, Addr.recvfrom]
    refine bind_inv (KeepsBut [.ip, .port, .protocol] a) _ _ _
      (fun b h => keepsBut_trans h (setFromSocket_keeps _ _ _ b) (fun _ h => h) (fun _ h => h)) ?_ (keepsBut_refl _ a)
    intro _ b hb
    split
    · exact hb
    · split
      · split
        · exact bind_inv (KeepsBut [.ip, .port, .protocol] a) _ _ _
            (fun b h => keepsBut_trans h (setIpv4_keeps _ b) (fun _ h => h) (by decide)) (fun _ _ h => h) hb
        · exact hb
      · split
        · exact bind_inv (KeepsBut [.ip, .port, .protocol] a) _ _ _
            (fun b h => keepsBut_trans h (setIpv6_keeps _ b) (fun _ h => h) (by decide)) (fun _ _ h => h) hb
        · exact hb
  | applyMask i => exact keepsBut_ip (sameButIp_setBytes ..)
  | ipFromUint128 u => exact keepsBut_ip (C03_from_uint128_frame ..)
  | preInc => exact keepsBut_ip (C03_from_uint128_frame ..)
  | postInc => exact keepsBut_ip (C03_from_uint128_frame ..)
  | preDec => exact keepsBut_ip (C03_from_uint128_frame ..)
  | postDec => exact keepsBut_ip (C03_from_uint128_frame ..)
  | addAssign n => exact keepsBut_ip (addAssign_frame a n)
  | subAssign n => exact keepsBut_ip (subAssign_frame a n)

/-- C120: therefore an attribute which no call of a history sets is kept. -/
theorem C120_kept (ops : List AddrOp) (a : Addr) (x : Attr) (hx : ∀ op ∈ ops, x ∉ setsAttr op) : SameAttr a (AddrOp.runAll ops a) x := by
  induction ops generalizing a with
  | nil => exact sameAttr_refl a x
  | cons op ops ih =>
    exact sameAttr_trans (C120_call op a x (hx op List.mem_cons_self)) (ih _ fun op' h => hx op' (List.mem_cons_of_mem _ h))

theorem runAll_append (ops ops' : List AddrOp) (a : Addr) : AddrOp.runAll (ops ++ ops') a = AddrOp.runAll ops' (AddrOp.runAll ops a) := by
  induction ops generalizing a with
  | nil => rfl
  | cons op ops ih => exact ih _

/-- What the last call which sets an attribute gives it. -/
theorem last_call (before : List AddrOp) (op : AddrOp) (after : List AddrOp) (a : Addr) (x : Attr) (hx : ∀ o ∈ after, x ∉ setsAttr o) :
    SameAttr (op.run (AddrOp.runAll before a)).1 (AddrOp.runAll (before ++ op :: after) a) x := by
  rw [runAll_append]
  exact C120_kept after _ x hx

/-- C120: a new address is `::` without a port, a mask which does not mask anything, the TCP protocol, nothing defined and no names. -/
theorem C120_new :
    ip Addr.default.getIpv6.addr = 0 ∧ Addr.default.isDefault = true ∧ Addr.default.isIpv4 = false ∧ Addr.default.getPort = 0
      ∧ Addr.default.portDefined = false ∧ Addr.default.protocol = 6 ∧ Addr.default.protocolDefined = false
      ∧ ip Addr.default.getMask = 2 ^ 128 - 1 ∧ Addr.default.getMaskSize = 128 ∧ Addr.default.maskDefined = false
      ∧ Addr.default.hostname = [] ∧ Addr.default.interface = [] ∧ Addr.default.getNetworkType.2 = .any
      ∧ Addr.default.getIpv6.flowinfo = 0 ∧ Addr.default.getIpv6.scope = 0 := by
  refine ⟨?_, ?_, ?_, ?_, rfl, rfl, rfl, ?_, ?_, rfl, rfl, rfl, ?_, rfl, rfl⟩ <;> decide +kernel

/-- C120: an address made from a `sockaddr_in` or a `sockaddr_in6` is a new one but for the address and the port. -/
theorem C120_constructed (a : Addr) (h : (∃ s, Addr.ofIn s = .ok a) ∨ ∃ s, Addr.ofIn6 s = .ok a) (x : Attr) (hx : x ≠ .ip) (hx' : x ≠ .port) :
    SameAttr Addr.default a x := by
  have hn : x ∉ [Attr.ip, Attr.port] := by simp [hx, hx']
  rcases h with ⟨s, h⟩ | ⟨s, h⟩
  · have := setIpv4_keeps s Addr.default x hn
    unfold Addr.ofIn at h
    split at h <;> rename_i e
    · rw [e] at this; cases h; exact this
    · cases h
    · cases h
  · have := setIpv6_keeps s Addr.default x hn
    unfold Addr.ofIn6 at h
    split at h <;> rename_i e
    · rw [e] at this; cases h; exact this
    · cases h
    · cases h

/-- C120: the mask is the one of the last call which set it, whatever the other calls before and after; so are the names, the port and the marks.
Here `before` and `after` are any calls, those after not being meant to change the attribute. -/
theorem C120_last (before after : List AddrOp) (a : Addr) :
    (∀ m, (∀ o ∈ after, .mask ∉ setsAttr o) → (AddrOp.runAll (before ++ .setMask m :: after) a).getMask = m)
      ∧ (∀ m, (∀ o ∈ after, .maskDefined ∉ setsAttr o) → (AddrOp.runAll (before ++ .setMask m :: after) a).maskDefined = true)
      ∧ (∀ d, (∀ o ∈ after, .maskDefined ∉ setsAttr o) → (AddrOp.runAll (before ++ .setMaskDefined d :: after) a).maskDefined = d)
      ∧ (∀ s, (∀ o ∈ after, .hostname ∉ setsAttr o) → (AddrOp.runAll (before ++ .setHostname s :: after) a).hostname = s)
      ∧ (∀ s, (∀ o ∈ after, .interface ∉ setsAttr o) → (AddrOp.runAll (before ++ .setInterface s :: after) a).interface = s)
      ∧ (∀ n : Nat, n ≤ 65535 → (∀ o ∈ after, .port ∉ setsAttr o) → (AddrOp.runAll (before ++ .setPort n :: after) a).getPort = n)
      ∧ (∀ n : Nat, n ≤ 65535 → (∀ o ∈ after, .portDefined ∉ setsAttr o) → (AddrOp.runAll (before ++ .setPort n :: after) a).portDefined = true)
      ∧ (∀ d, (∀ o ∈ after, .portDefined ∉ setsAttr o) → (AddrOp.runAll (before ++ .setPortDefined d :: after) a).portDefined = d)
      ∧ (∀ p, p = 0 ∨ p = 6 ∨ p = 17 → (∀ o ∈ after, .protocol ∉ setsAttr o) → (AddrOp.runAll (before ++ .setProtocol p :: after) a).protocol = p)
      ∧ (∀ d, (∀ o ∈ after, .protocolDefined ∉ setsAttr o) →
          (AddrOp.runAll (before ++ .setProtocolDefined d :: after) a).protocolDefined = d)
      ∧ (∀ n : Nat, MaskCountAccepted (ip (AddrOp.runAll before a).getIpv6.addr) n → (∀ o ∈ after, .mask ∉ setsAttr o) →
          ip (AddrOp.runAll (before ++ .setMaskCount n :: after) a).getMask = prefixMask n) := by
  refine ⟨fun m h => last_call before _ after a .mask h, fun m h => last_call before _ after a .maskDefined h,
    fun d h => last_call before _ after a .maskDefined h, fun d h => last_call before _ after a .hostname h,
    fun d h => last_call before _ after a .interface h, fun n hn h => ?_, fun n hn h => ?_, fun d h => last_call before _ after a .portDefined h,
    fun p hp h => ?_, fun d h => last_call before _ after a .protocolDefined h, fun n hn h => ?_⟩
  · obtain ⟨a', h1, h2, _⟩ := C15_set_port (AddrOp.runAll before a) n hn
    refine (last_call before _ after a .port h).trans ?_
    show (Addr.setPort n (AddrOp.runAll before a)).1.getPort = n
    rw [h1]
    exact h2
  · obtain ⟨a', h1, _, h2, _⟩ := C15_set_port (AddrOp.runAll before a) n hn
    refine (last_call before _ after a .portDefined h).trans ?_
    show (Addr.setPort n (AddrOp.runAll before a)).1.portDefined = true
    rw [h1]
    exact h2
  · obtain ⟨a', h1, h2, _⟩ := (C18_set_protocol_partial (AddrOp.runAll before a) p).1 hp
    refine (last_call before _ after a .protocol h).trans ?_
    show (Addr.setProtocol p (AddrOp.runAll before a)).1.protocol = p
    rw [h1]
    exact h2
  · obtain ⟨a', h1, _, h2, _⟩ := C08_mask_count_roundtrip (AddrOp.runAll before a) n hn
    refine (congrArg ip (last_call before _ after a .mask h)).trans ?_
    show ip (Addr.setMaskCount n (AddrOp.runAll before a)).1.getMask = prefixMask n
    rw [h1]
    exact h2

/-- C120: the loopback addresses are 127.0.0.1 and ::1, of the loopback type, after any calls and until the address is set again; setting one
never throws. -/
theorem C120_loopback (before after : List AddrOp) (a : Addr) (h : ∀ o ∈ after, .ip ∉ setsAttr o) :
    ip (AddrOp.runAll (before ++ .setIpv4Loopback :: after) a).getIpv6.addr = 0xFFFF7F000001
      ∧ ip (AddrOp.runAll (before ++ .setIpv6Loopback :: after) a).getIpv6.addr = 1
      ∧ a.setIpv4Loopback.2 = .ok () ∧ a.setIpv6Loopback.2 = .ok ()
      ∧ a.setIpv4Loopback.1.getNetworkType.2 = .loopback ∧ a.setIpv6Loopback.1.getNetworkType.2 = .loopback
      ∧ a.setIpv4Loopback.1.isIpv4 = true ∧ a.setIpv6Loopback.1.isIpv4 = false := by
  have h4 := (last_call before .setIpv4Loopback after a .ip h).1
  have h6 := (last_call before .setIpv6Loopback after a .ip h).1
  refine ⟨?_, ?_, rfl, rfl, ?_, ?_, ?_, ?_⟩
  · rw [h4]
    change ip (Addr.setIpv4Loopback Addr.default).1.getIpv6.addr = _
    decide +kernel
  · rw [h6]
    change ip (Addr.setIpv6Loopback Addr.default).1.getIpv6.addr = _
    decide +kernel
  · change (Addr.setIpv4Loopback Addr.default).1.getNetworkType.2 = _
    decide +kernel
  · change (Addr.setIpv6Loopback Addr.default).1.getNetworkType.2 = _
    decide +kernel
  · change (Addr.setIpv4Loopback Addr.default).1.isIpv4 = _
    decide +kernel
  · change (Addr.setIpv6Loopback Addr.default).1.isIpv4 = _
    decide +kernel

/-! ### Examples -/

/-- The loopback after other calls and before others. -/
example : ip (AddrOp.runAll ([.setPort 80, .preInc] ++ .setIpv4Loopback :: [.setMaskCount 104, .askType]) Addr.default).getIpv6.addr = 0xFFFF7F000001 :=
  (C120_loopback [.setPort 80, .preInc] [.setMaskCount 104, .askType] Addr.default (by decide)).1

/-- The mask of a new address which was incremented, given a port and asked for its type. -/
example : ip (AddrOp.runAll [.preInc, .setPort 80, .askType, .setIpv4Loopback] Addr.default).getMask = 2 ^ 128 - 1 :=
  (congrArg ip (C120_kept [.preInc, .setPort 80, .askType, .setIpv4Loopback] Addr.default .mask (by decide))).trans C120_new.2.2.2.2.2.2.2.1

/-- The port set before the address is changed to the loopback is still there. -/
example (before : List AddrOp) : (AddrOp.runAll (before ++ .setPort 80 :: [.setIpv4Loopback, .setMaskCount 200]) Addr.default).getPort = 80 :=
  (C120_last before [.setIpv4Loopback, .setMaskCount 200] Addr.default).2.2.2.2.2.1 80 (by decide) (by decide)

example : ∃ a, Addr.ofIn { family := 2, port := 80, addr := #v[10, 0, 0, 1], zero := Vector.replicate 8 0 } = .ok a ∧ SameAttr Addr.default a .mask :=
  ⟨_, rfl, C120_constructed _ (.inl ⟨{ family := 2, port := 80, addr := #v[10, 0, 0, 1], zero := Vector.replicate 8 0 }, rfl⟩) .mask (by decide) (by decide)⟩

end Verif
