import Verif.SpecKernel
import Verif.Props.AddrState

/-!
# Property C78: UDP over the sockets of the library
-/

namespace Verif

open Spec

/-! ### Lemmas -/

/-- What holds of the sockets of a program which only uses the library. -/
structure SockInv (s : Sock) : Prop where
  family : s.family = 2 ∨ s.family = 10
  type : s.type = 1 ∨ s.type = 2
  name : hasFamily s.family s.name
  notMapped : s.type = 2 → ∀ port flowinfo addr scope, s.name = .inet6 port flowinfo addr scope → ¬ isV4 (ip addr)
  senders : ∀ d ∈ s.queue, SenderName s.family d.1

def NetInv (k : Net) : Prop := ∀ s ∈ k, SockInv s

theorem onSock_inv {k : Net} (h : NetInv k) (fd : Int) {f : Sock → Option Sock}
    (hf : ∀ s, SockInv s → ∀ s', f s = some s' → SockInv s') : NetInv (onSock k fd f).1 := by
  unfold onSock
  split
  · exact h
  · split
    · exact h
    · rename_i s hs
      split
      · exact h
      · rename_i s' hs'
        intro x hx
        rcases List.mem_or_eq_of_mem_set hx with hx | rfl
        · exact h x hx
        · exact hf s (h s (List.mem_of_getElem? hs)) _ hs'

/-- The calls of the library. -/
def CallOk : SysCall → Prop
  | .socket family type _ => (family = 2 ∨ family = 10) ∧ (type &&& 15 = 1 ∨ type &&& 15 = 2)
  | .bind _ (.in6 n) _ => ¬ isV4 (ip n.addr)
  | _ => True

theorem exec_inv {k : Net} (h : NetInv k) (c : Choice) (x : SysCall) (hx : CallOk x) : NetInv (exec c x k).1 := by
  cases x with
  | socket family type protocol =>
    rw [exec]
    split
    · intro s hs
      rcases List.mem_append.1 hs with hs | hs
      · exact h s hs
      · rw [List.mem_singleton] at hs
        subst hs
        refine ⟨hx.1, hx.2, ?_, ?_, fun d hd => nomatch hd⟩
        · rcases hx.1 with rfl | rfl
          · exact rfl
          · exact rfl
        · intro _ port flowinfo addr scope hn
          unfold noName at hn
          split at hn
          · cases hn
          · cases hn
            decide +kernel
    · exact h
  | setReuseAddr fd => exact h
  | connect fd name len =>
    refine onSock_inv h fd fun s hs s' hs' => ?_
    split at hs'
    · rename_i hc
      cases hs'
      exact ⟨hs.family, hs.type, hc.2.2, fun ht => absurd (hc.2.1.symm.trans ht) (by decide), hs.senders⟩
    · cases hs'
  | bind fd name len =>
    refine onSock_inv h fd fun s hs s' hs' => ?_
    split at hs'
    · cases name with
      | in4 n =>
        rw [bindName] at hs'
        split at hs'
        · rename_i hn
          cases hs'
          exact ⟨hs.family, hs.type, hn.1, fun _ _ _ _ _ e => (nomatch e), hs.senders⟩
        · cases hs'
      | in6 n =>
        rw [bindName] at hs'
        split at hs'
        · rename_i hn
          cases hs'
          refine ⟨hs.family, hs.type, hn.1, fun _ _ _ _ _ e => ?_, hs.senders⟩
          cases e
          exact hx
        · cases hs'
    · cases hs'
  | sendto fd buffer name len =>
    refine onSock_inv h fd fun s hs s' hs' => ?_
    split at hs'
    · cases hs'
      split
      · exact hs
      · refine ⟨hs.family, hs.type, ?_, ?_, hs.senders⟩
        · have := hs.name
          revert this
          dsimp only
          generalize s.name = m
          cases m <;> exact fun h => h
        · intro ht port flowinfo addr scope e
          have := hs.notMapped ht
          revert this e
          dsimp only
          generalize s.name = m
          cases m with
          | inet6 p f b sc =>
            intro e hm
            cases e
            exact hm _ _ _ _ rfl
          | inet p b z => intro e; cases e
          | other => intro e; cases e
    · cases hs'

theorem execAll_inv {k : Net} (h : NetInv k) (c : Choice) (l : List SysCall) (hl : ∀ x ∈ l, CallOk x) : NetInv (execAll c l k) := by
  induction l generalizing k with
  | nil => exact h
  | cons x l ih =>
    exact ih (exec_inv h c x (hl x List.mem_cons_self)) fun y hy => hl y (List.mem_cons_of_mem _ hy)

theorem not_v4 {a : Addr} (h : ¬ a.isIpv4 = true) : ¬ isV4 (ip a.address.addr) := fun h' => h ((isIpv4_iff a).2 h')

theorem run_inv {k : Net} (h : NetInv k) (op : NetOp) : NetInv (op.run k) := by
  cases op with
  | create a flags c =>
    refine execAll_inv h c _ ?_
    unfold Addr.createSocket
    have hfam : (if a.isIpv4 = true then AF_INET else AF_INET6) = 2 ∨ (if a.isIpv4 = true then AF_INET else AF_INET6) = 10 := by
      split
      · exact .inl rfl
      · exact .inr rfl
    dsimp only
    split
    · intro x hx
      rcases List.mem_cons.1 hx with rfl | hx
      · refine ⟨hfam, .inl ?_⟩
        split <;> split <;> decide
      · generalize (if c.accept = true then (↑(List.length k) : Int) else -1) = n at hx
        split at hx
        · rw [List.mem_singleton] at hx; subst hx; trivial
        · cases hx
    · split
      · intro x hx
        rw [List.mem_singleton] at hx; subst hx
        refine ⟨hfam, .inr ?_⟩
        split <;> split <;> decide
      · intro x hx; cases hx
  | connect a fd c =>
    refine execAll_inv h c _ ?_
    unfold Addr.connect
    split
    · split
      · split
        · intro x hx; rw [List.mem_singleton] at hx; subst hx; trivial
        · intro x hx; cases hx
        · intro x hx; cases hx
      · intro x hx; rw [List.mem_singleton] at hx; subst hx; trivial
    · intro x hx; cases hx
  | bind a fd c =>
    refine execAll_inv h c _ ?_
    unfold Addr.bindConst
    split
    · split
      · intro x hx; rw [List.mem_singleton] at hx; subst hx; trivial
      · intro x hx; cases hx
      · intro x hx; cases hx
    · rename_i h4
      intro x hx; rw [List.mem_singleton] at hx; subst hx
      exact not_v4 h4
  | sendto a fd buffer c =>
    refine execAll_inv h c _ ?_
    unfold Addr.sendto
    split
    · intro x hx; cases hx
    · split
      · split
        · intro x hx; rw [List.mem_singleton] at hx; subst hx; trivial
        · intro x hx; cases hx
        · intro x hx; cases hx
      · intro x hx; rw [List.mem_singleton] at hx; subst hx; trivial
  | recvfrom fd =>
    refine onSock_inv h fd fun s hs s' hs' => ?_
    cases hs'
    exact ⟨hs.family, hs.type, hs.name, hs.notMapped, fun d hd => hs.senders d (List.mem_of_mem_drop hd)⟩
  | deliver fd sender data =>
    refine onSock_inv h fd fun s hs s' hs' => ?_
    split at hs'
    · rename_i hc
      cases hs'
      refine ⟨hs.family, hs.type, hs.name, hs.notMapped, fun d hd => ?_⟩
      rcases List.mem_append.1 hd with hd | hd
      · exact hs.senders d hd
      · rw [List.mem_singleton] at hd; subst hd; exact hc.2
    · cases hs'

theorem runNet_inv {k : Net} (h : NetInv k) (ops : List NetOp) : NetInv (runNet ops k) := by
  induction ops generalizing k with
  | nil => exact h
  | cons op ops ih => exact ih (run_inv h op)

theorem set_sock {family : BitVec 16} {n : Storage} (hn : hasFamily family n) {t : BitVec 32} (ht : t = 1 ∨ t = 2) {fd : Int} (hfd : 0 ≤ fd)
    (peer : Option Storage) (a : Addr) :
    ∃ b, a.setFromSocket fd false { sockName := some n, peerName := peer, type := some t } = (b, .ok ())
      ∧ b.protocol = (if t = 1 then 6 else 17) ∧ b.address.family = 10
      ∧ some (endOf b) = endpoint n
      ∧ b.hostname = a.hostname ∧ b.mask = a.mask
      ∧ (family = 2 → isV4 (ip b.getIpv6.addr))
      ∧ (family = 10 → ∀ port flowinfo addr scope, n = .inet6 port flowinfo addr scope → b.getIpv6.addr = addr) := by
  have hty : ∀ x : Addr, Addr.setTypeFromSocket (some t) x = ({ x with protocol := if t = 1 then 6 else 17 }, .ok ()) := by
    intro x
    rcases ht with rfl | rfl <;> rfl
  unfold Addr.setFromSocket
  rw [if_neg (by omega)]
  cases n with
  | inet port addr zero =>
    obtain ⟨b, e, _, h4, _, hip, hf, hp, _, hs, hsame⟩ :=
      C01_ipv4_roundtrip a { family := 2, port := port, addr := addr, zero := zero } rfl
    refine ⟨{ b with protocol := if t = 1 then 6 else 17 }, ?_, rfl, hf, ?_, ?_, ?_, fun _ => (isIpv4_iff b).1 h4, ?_⟩
    · show SM.bind _ _ a = _
      rw [SM.bind, show AF_INET = 2 from rfl, e]
      exact hty b
    · show some (endOf b) = some _
      rw [endOf, hip, hp, hs]
    · exact hsame.hostname
    · exact hsame.mask
    · intro hfam; exact absurd (hn.symm.trans hfam) (by decide)
  | inet6 port flowinfo addr scope =>
    obtain ⟨b, e, hb, hsame⟩ :=
      C02_ipv6_roundtrip a { family := 10, port := port, flowinfo := flowinfo, addr := addr, scope := scope } rfl
    have hb' : b.address = _ := hb
    refine ⟨{ b with protocol := if t = 1 then 6 else 17 }, ?_, rfl, ?_, ?_, ?_, ?_, ?_, ?_⟩
    · show SM.bind _ _ a = _
      rw [SM.bind, show AF_INET6 = 10 from rfl, e]
      exact hty b
    · show b.address.family = 10
      rw [hb']
    · show some (endOf b) = _
      rw [endOf, hb]
      rfl
    · exact hsame.hostname
    · exact hsame.mask
    · intro hfam; exact absurd (hn.symm.trans hfam) (by decide)
    · intro _ p f ad sc e
      cases e
      show b.address.addr = _
      rw [hb']
  | other => exact hn.elim

/-! ## C78 -/

/-- **C78**: a program makes its sockets with `create_socket()` and uses them through the library only, with any objects and in any
order. When a datagram waits, `recvfrom()` does not throw: it returns the number of bytes, the object then is the address of the
sender, and `sendto()` with this object sends to exactly this sender. -/
theorem C78_reply (ops : List NetOp) (s : Sock) (hs : s ∈ runNet ops []) (ht : s.type = 2) (sender : Storage) (data : List Byte)
    (rest : List (Storage × List Byte)) (hq : s.queue = (sender, data) :: rest) (a : Addr) (fd answer : Int) (hfd : 0 ≤ fd)
    (ha : 0 ≤ answer) (old : SockaddrIn6) :
    ∃ b, a.recvfrom fd (infoOf s) answer (cut4 sender) (full6 old sender) = (b, .ok answer)
      ∧ some (endOf b) = endpoint sender
      ∧ ∀ (buffer : List Byte) (answer' : Int), ∃ name len,
        b.sendto fd buffer answer' = ([SysCall.sendto fd buffer name len], .ok answer') ∧ destination s.family name len = endpoint sender := by
  have hi := runNet_inv (k := []) (fun _ h => nomatch h) ops s hs
  have hsend : SenderName s.family sender := hi.senders (sender, data) (by rw [hq]; exact List.mem_cons_self)
  have reply : ∀ b : Addr, b.protocol = IPPROTO_UDP → b.address.family = 10 →
      some (endOf b) = endpoint sender →
      (¬ isV4 (ip b.getIpv6.addr) → s.family = 10) → (isV4 (ip b.getIpv6.addr) → b.getIpv6.scope = 0) →
      ∀ (buffer : List Byte) (answer' : Int), ∃ name len,
        b.sendto fd buffer answer' = ([SysCall.sendto fd buffer name len], .ok answer') ∧ destination s.family name len = endpoint sender := by
    intro b hp hb he h6 h4 buffer answer'
    unfold Addr.sendto
    rw [if_neg (by rw [hp]; exact fun h => h rfl)]
    obtain ⟨g1, g2, _⟩ := C02_get_ipv4_iff_mapped b
    by_cases hv : b.isIpv4 = true
    · rw [if_pos hv]
      obtain ⟨n, e, hf, hport, hip⟩ := g2 (g1.1 hv)
      rw [e]
      refine ⟨_, _, rfl, ?_⟩
      rw [destination, if_pos ⟨hf, rfl⟩, ← he, endOf, ← hip, hport, h4 (g1.1 hv)]
    · rw [if_neg hv]
      refine ⟨_, _, rfl, ?_⟩
      rw [destination, if_pos ⟨h6 fun h => hv (g1.2 h), hb, rfl⟩, ← he]
      rfl
  obtain ⟨l, el, lp, lf, le, _, _, l4, l6⟩ := set_sock hi.name (.inr ht) hfd none a
  rw [if_neg (by rw [ht]; decide)] at lp
  have hl : ∀ f : Unit → SM Addr Int, SM.bind (Addr.setFromSocket fd false (infoOf s)) f a = f () l := by
    intro f
    rw [SM.bind]
    unfold infoOf
    rw [el]
  unfold Addr.recvfrom
  rw [hl]
  rw [if_neg (by rw [lp]; exact fun h => h rfl)]
  cases sender with
  | inet port addr zero =>
    have hfam : s.family = 2 := hsend
    rw [if_pos ((isIpv4_iff l).2 (l4 hfam)), if_pos ha]
    obtain ⟨b, e, _, h4, _, hip, hf, hp, _, hsc, hsame⟩ :=
      C01_ipv4_roundtrip l { family := 2, port := port, addr := addr, zero := zero } rfl
    have he : some (endOf b) = endpoint (.inet port addr zero) := by
      rw [endOf, hip, hp, hsc]
      rfl
    refine ⟨b, ?_, he, reply b (hsame.protocol.trans lp) hf he (fun h => absurd ((isIpv4_iff b).1 h4) h) fun _ => hsc⟩
    show SM.bind (Addr.setIpv4 { family := 2, port := port, addr := addr, zero := zero }) _ l = _
    rw [SM.bind, e]
    rfl
  | inet6 port flowinfo addr scope =>
    have hfam : s.family = 10 := hsend.1
    have hnot : ¬ isV4 (ip l.getIpv6.addr) := by
      have hn := hi.name
      rcases hname : s.name with ⟨p, ad, z⟩ | ⟨p, fl, ad, sc⟩ | _
      · rw [hname] at hn; exact absurd (hn.symm.trans hfam) (by decide)
      · rw [l6 hfam p fl ad sc hname]
        exact hi.notMapped ht p fl ad sc hname
      · rw [hname] at hn; exact hn.elim
    rw [if_neg (fun h => hnot ((isIpv4_iff l).1 h)), if_pos ha]
    obtain ⟨b, e, hb, hsame⟩ :=
      C02_ipv6_roundtrip l { family := 10, port := port, flowinfo := flowinfo, addr := addr, scope := scope } rfl
    have he : some (endOf b) = endpoint (.inet6 port flowinfo addr scope) := by
      rw [endOf, hb]
      rfl
    refine ⟨b, ?_, he, reply b (hsame.protocol.trans lp) ?_ he (fun _ => hfam) ?_⟩
    · show SM.bind (Addr.setIpv6 { family := 10, port := port, flowinfo := flowinfo, addr := addr, scope := scope }) _ l = _
      rw [SM.bind, e]
      rfl
    · show b.getIpv6.family = 10
      rw [hb]
    · rw [hb]; exact hsend.2
  | other => exact hsend.elim

/-- A program, for the examples: a server which binds a UDP socket to `[::]:0`, answers to somebody else and then has a datagram of
the IPv4 address 1.2.3.4 in its queue. -/
def sampleNet : List NetOp :=
  let any : Addr := { Addr.default with protocol := 17 }
  [.create any 3 { accept := true, port := 0, name := .other }, .bind any 0 { accept := true, port := 0x901F, name := .other },
    .deliver 0 (.inet6 7 0 (Vector.replicate 16 1) 3) [1, 2], .recvfrom 0,
    .deliver 0 (.inet6 9 0 #v[0, 0, 0, 0, 0, 0, 0, 0, 0, 0, 255, 255, 1, 2, 3, 4] 0) [3]]

example : ∃ s, s ∈ runNet sampleNet [] ∧ s.type = 2 ∧ s.family = 10 ∧ s.name = .inet6 0x901F 0 (Vector.replicate 16 0) 0
    ∧ s.queue = [(.inet6 9 0 #v[0, 0, 0, 0, 0, 0, 0, 0, 0, 0, 255, 255, 1, 2, 3, 4] 0, [3])] :=
  ⟨_, List.mem_of_getElem? (i := 0) (by rfl), by decide +kernel⟩

/-- C78: when no datagram waits (the kernel answers -1), `recvfrom()` returns this answer and the object is the local name of the
socket, of protocol UDP; with a
socket of type `SOCK_STREAM` it returns -1 and the protocol is TCP. The host name and the mask stay. -/
theorem C78_no_datagram (ops : List NetOp) (s : Sock) (hs : s ∈ runNet ops []) (a : Addr) (fd answer : Int)
    (hfd : 0 ≤ fd) (ha : s.type = 2 → answer < 0) (from4 : SockaddrIn) (from6 : SockaddrIn6) :
    ∃ b, a.recvfrom fd (infoOf s) answer from4 from6 = (b, .ok (if s.type = 2 then answer else -1))
      ∧ some (endOf b) = endpoint s.name
      ∧ b.protocol = (if s.type = 2 then 17 else 6) ∧ b.hostname = a.hostname ∧ b.mask = a.mask := by
  have hi := runNet_inv (k := []) (fun _ h => nomatch h) ops s hs
  have ht := hi.type
  obtain ⟨l, el, lp, lf, le, lh, lm, _⟩ := set_sock hi.name ht hfd none a
  have hl : ∀ f : Unit → SM Addr Int, SM.bind (Addr.setFromSocket fd false (infoOf s)) f a = f () l := by
    intro f
    rw [SM.bind]
    unfold infoOf
    rw [el]
  refine ⟨l, ?_, le, ?_, lh, lm⟩
  · unfold Addr.recvfrom
    rw [hl]
    rcases ht with ht | ht
    · rw [if_pos (by rw [lp, if_pos ht]; decide), ht]
      rfl
    · have := ha ht
      rw [if_neg (by rw [lp, ht]; decide), if_pos ht]
      split
      · rw [if_neg (by omega)]
      · rw [if_neg (by omega)]
  · show l.protocol = _
    rw [lp]
    rcases ht with ht | ht <;> rw [ht] <;> rfl

example : ∃ s, s ∈ runNet [.create Addr.default 0 { accept := true, port := 0, name := .other }] [] ∧ s.type = 1 :=
  ⟨_, List.mem_of_getElem? (i := 0) (by rfl), by decide +kernel⟩

theorem onSock_at {k : Net} {fd : Nat} {s : Sock} (hs : k[fd]? = some s) (f : Sock → Option Sock) :
    (f s = none ∧ onSock k fd f = (k, -1)) ∨ (∃ s', f s = some s' ∧ (onSock k fd f).2 = 0 ∧ (onSock k fd f).1[fd]? = some s') := by
  unfold onSock
  rw [if_neg (by omega), Int.toNat_natCast, hs]
  cases hf : f s with
  | none => exact .inl ⟨rfl, by simp only [hf]⟩
  | some s' =>
    refine .inr ⟨s', rfl, by simp only [hf], ?_⟩
    simp only [hf]
    obtain ⟨hlt, _⟩ := List.getElem?_eq_some_iff.1 hs
    exact List.getElem?_set_self hlt

/-- C78: `bind()` of an object on a socket of such a program makes one system call. When the kernel refuses it, -1 is returned and
the object stays as it is. When the kernel accepts it, the object has the address it had and the port which the socket got: the
one chosen by the kernel when the object had the port 0. -/
theorem C78_bind (ops : List NetOp) (fd : Nat) (s : Sock) (hs : (runNet ops [])[fd]? = some s) (a : Addr) (ha : Reach a) (c : Choice) :
    ∃ call, (∀ r, (a.bindConst fd r).1 = [call])
      ∧ ((exec c call (runNet ops [])).2 = -1 ∧ (∀ info, a.bind fd (-1) info = (a, .ok (-1)))
        ∨ (exec c call (runNet ops [])).2 = 0
          ∧ ∃ s' b, (exec c call (runNet ops [])).1[fd]? = some s' ∧ a.bind fd 0 (infoOf s') = (b, .ok 0)
            ∧ (endOf b).ip = (endOf a).ip
            ∧ (endpoint s'.name).map (fun e => (e.ip, e.port)) = some ((endOf b).ip, (endOf b).port)
            ∧ ((endOf a).port ≠ 0 → b = a) ∧ ((endOf a).port = 0 → (endOf b).port = c.port)) := by
  have hinv := C17_structural_invariant a ha
  obtain ⟨hg4, hg6⟩ := goodArg_cases a hinv
  have hk := runNet_inv (k := []) (fun _ h => nomatch h) ops
  have hport : a.getPort = 0 ↔ (endOf a).port = 0 := by
    show (swap16 a.address.port).toNat = 0 ↔ a.address.port = 0
    generalize a.address.port = p
    constructor
    · intro h
      have h0 : swap16 p = 0 := BitVec.eq_of_toNat_eq h
      have := swap16_swap16 p
      rw [h0] at this
      exact this.symm
    · rintro rfl
      rfl
  have main : ∀ (name : SockArg) (len : Nat), (∀ r, a.bindConst fd r = ([SysCall.bind fd name len], .ok r)) →
      GoodArg a name.family name len →
      ∃ call, (∀ r, (a.bindConst fd r).1 = [call])
      ∧ ((exec c call (runNet ops [])).2 = -1 ∧ (∀ info, a.bind fd (-1) info = (a, .ok (-1)))
        ∨ (exec c call (runNet ops [])).2 = 0
          ∧ ∃ s' b, (exec c call (runNet ops [])).1[fd]? = some s' ∧ a.bind fd 0 (infoOf s') = (b, .ok 0)
            ∧ (endOf b).ip = (endOf a).ip
            ∧ (endpoint s'.name).map (fun e => (e.ip, e.port)) = some ((endOf b).ip, (endOf b).port)
            ∧ ((endOf a).port ≠ 0 → b = a) ∧ ((endOf a).port = 0 → (endOf b).port = c.port)) := by
    intro name len hcall hgood
    refine ⟨SysCall.bind fd name len, fun r => by rw [hcall], ?_⟩
    have hck : CallOk (SysCall.bind fd name len) → NetInv (exec c (SysCall.bind fd name len) (runNet ops [])).1 :=
      exec_inv hk c _
    rw [exec]
    rcases onSock_at hs (fun s =>
      if c.accept = true ∧ s.bound = false then
        (bindName s.family c.port name len).map fun n => { s with name := n, bound := true }
      else none) with ⟨_, h⟩ | ⟨s', h1, h2, h3⟩
    · refine .inl ⟨by rw [h], fun info => ?_⟩
      unfold Addr.bind
      rw [hcall]
      rfl
    · refine .inr ⟨h2, s', ?_⟩
      split at h1
      · cases hb : bindName s.family c.port name len with
        | none => rw [hb] at h1; cases h1
        | some n =>
          rw [hb] at h1
          cases h1
          have hn : hasFamily s.family n ∧ (endpoint n).map (fun e => (e.ip, e.port))
              = some ((endOf a).ip, if (endOf a).port = 0 then c.port else (endOf a).port) := by
            obtain ⟨_, _, gp, gi⟩ := hgood
            cases name with
            | in4 m =>
              rw [bindName] at hb
              split at hb
              · rename_i hm
                cases hb
                refine ⟨hm.1, ?_⟩
                show some (_, _) = some (_, _)
                rw [show (endOf a).ip = _ from gi.symm, show (endOf a).port = m.port from gp.symm]
                rfl
              · cases hb
            | in6 m =>
              rw [bindName] at hb
              split at hb
              · rename_i hm
                cases hb
                refine ⟨hm.1, ?_⟩
                show some (_, _) = some (_, _)
                rw [show (endOf a).ip = _ from gi.symm, show (endOf a).port = m.port from gp.symm]
                rfl
              · cases hb
          have hty := (hk s (List.mem_of_getElem? hs)).type
          by_cases hp : (endOf a).port = 0
          · obtain ⟨b, eb, _, _, be, _⟩ := set_sock hn.1 hty (fd := fd) (by omega) none a
            refine ⟨b, h3, ?_, ?_⟩
            · unfold Addr.bind
              rw [hcall]
              show (if (0 : Int) = 0 ∧ a.getPort = 0 then _ else _) = _
              rw [if_pos ⟨rfl, hport.2 hp⟩, SM.bind]
              unfold infoOf
              rw [eb]
              rfl
            · have := hn.2
              rw [← be, if_pos hp] at this
              injection this with this
              injection this with t1 t2
              refine ⟨t1, ?_, fun h => absurd hp h, fun _ => t2⟩
              show (endpoint n).map _ = _
              rw [← be]
              rfl
          · refine ⟨a, h3, ?_, rfl, ?_, fun _ => rfl, fun h => absurd h hp⟩
            · unfold Addr.bind
              rw [hcall]
              show (if (0 : Int) = 0 ∧ a.getPort = 0 then _ else _) = _
              rw [if_neg (fun h => hp (hport.1 h.2))]
            · have := hn.2
              rw [if_neg hp] at this
              exact this
      · cases h1
  by_cases h4 : a.isIpv4 = true
  · obtain ⟨m, hm, hgood⟩ := hg4 h4
    refine main (.in4 m) sizeofIn (fun r => by rw [Addr.bindConst, if_pos h4, hm]) ?_
    rw [← hgood.1] at hgood
    exact hgood
  · have h4' : a.isIpv4 = false := by simpa using h4
    have hgood := hg6 h4'
    refine main (.in6 a.address) sizeofIn6 (fun r => by rw [Addr.bindConst, if_neg h4]) ?_
    rw [← hgood.1] at hgood
    exact hgood

example : (runNet (sampleNet.take 1) [])[0]?.map (fun s => (s.family, s.type, s.bound)) = some (10, 2, false)
    ∧ Reach (AddrOp.run (.setProtocol 17) Addr.default).1
    ∧ (runNet (sampleNet.take 2) [])[0]?.map (fun s => s.name) = some (.inet6 0x901F 0 (Vector.replicate 16 0) 0) :=
  ⟨by decide +kernel, .step _ .default, by decide +kernel⟩

/-- C78: the sockets must be bound through the library. A datagram socket of the family of IPv6 which was bound to an IPv4 address by
other means makes `recvfrom()` throw, although the datagram was received. -/
theorem C78_outside (s : Sock) (ht : s.type = 2) (port : BitVec 16) (flowinfo : BitVec 32) (addr : Bytes16) (scope : BitVec 32)
    (hn : s.name = .inet6 port flowinfo addr scope) (h4 : isV4 (ip addr)) (sender : Storage) (hsend : SenderName 10 sender) (a : Addr)
    (fd answer : Int) (hfd : 0 ≤ fd) (ha : 0 ≤ answer) (old : SockaddrIn6) :
    (a.recvfrom fd (infoOf s) answer (cut4 sender) (full6 old sender)).2 = .throw .invalidArgument := by
  have hf : hasFamily 10 s.name := by rw [hn]; rfl
  obtain ⟨l, el, lp, _, _, _, _, _, l6⟩ := set_sock hf (.inr ht) hfd none a
  rw [if_neg (by rw [ht]; decide)] at lp
  have hv : l.isIpv4 = true := by
    rw [isIpv4_iff]
    have := l6 rfl port flowinfo addr scope hn
    rw [show l.bytes = addr from this]
    exact h4
  unfold Addr.recvfrom
  rw [SM.bind]
  unfold infoOf
  rw [el]
  show (if l.protocol ≠ IPPROTO_UDP then _ else _ : Addr × Res Int).2 = _
  rw [if_neg (by rw [lp]; exact fun h => h rfl), if_pos hv, if_pos ha]
  cases sender with
  | inet p ad z => exact absurd (show (10 : BitVec 16) = 2 from hsend) (by decide)
  | inet6 p f ad sc => rfl
  | other => exact hsend.elim

example : isV4 (ip #v[0, 0, 0, 0, 0, 0, 0, 0, 0, 0, 255, 255, 1, 2, 3, 4])
    ∧ SenderName 10 (.inet6 9 0 #v[0, 0, 0, 0, 0, 0, 0, 0, 0, 0, 255, 255, 1, 2, 3, 4] 0) := by decide +kernel

end Verif
