import Verif.SpecService
import Verif.Props.AddrState
import Verif.Props.ParserPrint

/-!
# C84: names of addresses and ports

`get_name()`, `get_service()`, `get_port_name()` and `set_port()` with a name agree with each other and with what the system
knows.
-/

namespace Verif

open Spec

/-- The name of the address, or the empty text. -/
theorem C84_name (sys : NameSys) (db : NetDb) (names : Bytes16 → BitVec 32 → Option Str) (services : List Service)
    (hk : Knows sys db names services) (a : Addr) (ha : Reach a) :
    (∀ n, names a.getIpv6.addr a.getIpv6.scope = some n → n.length < 1025 → a.getName sys = n)
      ∧ (names a.getIpv6.addr a.getIpv6.scope = none → a.getName sys = []) := by
  have hf : a.address.family = 10 := (C17_structural_invariant a ha).1
  have h1 : a.nameFlags &&& 8 ≠ 0 := by unfold Addr.nameFlags; split <;> decide
  have h2 : a.nameFlags &&& 5 = 0 := by unfold Addr.nameFlags; split <;> decide
  have h := hk.host a.address a.nameFlags hf h1 h2
  unfold Addr.getName Addr.getIpv6
  rw [h]
  constructor
  · intro n hn hl
    rw [hn, Option.filter_some, if_pos (by simpa using hl)]
    rfl
  · intro hn
    rw [hn]
    rfl

/-- The name depends on the address only: not on the port, the mask, the protocol, the interface or the name the address was
made from. -/
theorem C84_name_of_address (sys : NameSys) (db : NetDb) (names : Bytes16 → BitVec 32 → Option Str) (services : List Service)
    (hk : Knows sys db names services) (a b : Addr) (ha : Reach a) (hb : Reach b)
    (h : a.getIpv6.addr = b.getIpv6.addr) (hs : a.getIpv6.scope = b.getIpv6.scope) : a.getName sys = b.getName sys := by
  have key : ∀ c : Addr, Reach c → c.getName sys = ((names c.getIpv6.addr c.getIpv6.scope).filter (·.length < 1025)).getD [] := by
    intro c hc
    have hf : c.address.family = 10 := (C17_structural_invariant c hc).1
    have h1 : c.nameFlags &&& 8 ≠ 0 := by unfold Addr.nameFlags; split <;> decide
    have h2 : c.nameFlags &&& 5 = 0 := by unfold Addr.nameFlags; split <;> decide
    unfold Addr.getName Addr.getIpv6
    rw [hk.host c.address c.nameFlags hf h1 h2]
  rw [key a ha, key b hb, h, hs]

/-- The service: of UDP when the protocol is UDP, of TCP otherwise; the number when the port has no service; nothing for
port 0 or a name which is too long. -/
theorem C84_service (sys : NameSys) (db : NetDb) (names : Bytes16 → BitVec 32 → Option Str) (services : List Service)
    (hk : Knows sys db names services) (a : Addr) (ha : Reach a) :
    a.getService sys =
      if a.getPort = 0 then []
      else match serviceOfPort services a.getPort (protocolName (if a.protocol = 17 then 17 else 6)) with
        | some n => if n.length < 32 then n else []
        | none => a.getStrPort := by
  have hf : a.address.family = 10 := (C17_structural_invariant a ha).1
  have h2 : a.nameFlags &&& 2 = 0 := by unfold Addr.nameFlags; split <;> decide
  have h3 : (if a.nameFlags &&& 16 = 0 then (6 : Int) else 17) = if a.protocol = 17 then 17 else 6 := by
    unfold Addr.nameFlags
    by_cases hp : a.protocol = IPPROTO_UDP
    · rw [if_pos hp, if_pos (show a.protocol = 17 from hp), if_neg (by decide)]
    · rw [if_neg hp, if_neg (show ¬ a.protocol = 17 from hp), if_pos (by decide)]
  unfold Addr.getService
  rw [hk.service a.address a.nameFlags hf h2, h3]
  unfold Addr.getPort Addr.getStrPort Addr.getPort
  split
  · rfl
  · cases serviceOfPort services (swap16 a.address.port).toNat (protocolName (if a.protocol = 17 then 17 else 6)) with
    | none => rfl
    | some n =>
      show (if n.length < 32 then some n else none).getD [] = if n.length < 32 then n else []
      split <;> rfl

/-- With TCP or UDP, the service is the name of the port, or its number when it has no name. -/
theorem C84_port_name (sys : NameSys) (db : NetDb) (names : Bytes16 → BitVec 32 → Option Str) (services : List Service)
    (hk : Knows sys db names services) (a : Addr) (ha : Reach a) (hp : a.protocol = 6 ∨ a.protocol = 17)
    (h0 : a.getPort ≠ 0) (hs : ∀ s ∈ services, s.name ≠ [] ∧ s.name.length < 32) :
    ∃ n, a.getPortName db = .ok n ∧ a.getService sys = if n = [] then a.getStrPort else n := by
  have hproto : (if a.protocol = 17 then (17 : Int) else 6) = a.protocol := by
    rcases hp with hp | hp <;> rw [hp] <;> rfl
  have hsv := C84_service sys db names services hk a ha
  rw [if_neg h0, hproto] at hsv
  have hdb : a.getProtocolName db = .ok (protocolName a.protocol) := by
    unfold Addr.getProtocolName
    rw [hk.getprotobynumber a.protocol (.inr hp)]
  have hc : cstr (protocolName a.protocol) = protocolName a.protocol := by
    rcases hp with hp | hp <;> rw [hp] <;> decide
  unfold Addr.getPortName
  rw [hdb]
  show ∃ n, (match db.servByPort a.getPort (cstr (protocolName a.protocol)) with
    | .found name => Res.ok name
    | .notFound => .ok []
    | .error => .ok []) = .ok n ∧ _
  rw [hc, hk.getservbyport]
  cases he : serviceOfPort services a.getPort (protocolName a.protocol) with
  | none =>
    rw [he] at hsv
    exact ⟨[], rfl, by rw [if_pos rfl]; exact hsv⟩
  | some n =>
    rw [he] at hsv
    have hm : ∃ s ∈ services, s.name = n := by
      unfold serviceOfPort at he
      rw [Option.map_eq_some_iff] at he
      obtain ⟨s, h1, h2⟩ := he
      exact ⟨s, List.mem_of_find?_eq_some h1, h2⟩
    obtain ⟨s, h1, h2⟩ := hm
    obtain ⟨h3, h4⟩ := hs s h1
    rw [h2] at h3 h4
    refine ⟨n, rfl, ?_⟩
    rw [if_neg h3, hsv]
    exact if_pos h4

/-- The claim of C84: `a.set_port(a.get_service())` leaves the port as it is. -/
def C84_claim : Prop :=
  ∀ (sys : NameSys) (db : NetDb) (names : Bytes16 → BitVec 32 → Option Str) (services : List Service),
    Knows sys db names services → Consistent services → (∀ s ∈ services, s.name.length < 32) →
    ∀ a : Addr, Reach a → a.getPort ≠ 0 →
      ∃ a', a.setPortText sys db (a.getService sys) = (a', .ok true) ∧ a'.getPort = a.getPort ∧ SameButPort a a'

/-- C84, partial: this holds for TCP and UDP. Missing: the protocol IP, for which it is false, see `C84_claim_fails`. -/
theorem C84_roundtrip_partial (sys : NameSys) (db : NetDb) (names : Bytes16 → BitVec 32 → Option Str) (services : List Service)
    (hk : Knows sys db names services) (hc : Consistent services) (hs : ∀ s ∈ services, s.name.length < 32)
    (a : Addr) (ha : Reach a) (h0 : a.getPort ≠ 0) (hp : a.protocol = 6 ∨ a.protocol = 17) :
    ∃ a', a.setPortText sys db (a.getService sys) = (a', .ok true) ∧ a'.getPort = a.getPort ∧ SameButPort a a' := by
  have hproto : (if a.protocol = 17 then (17 : Int) else 6) = a.protocol := by
    rcases hp with hp | hp <;> rw [hp] <;> rfl
  have hsv := C84_service sys db names services hk a ha
  rw [if_neg h0, hproto] at hsv
  have hport : a.getPort < 65536 := (swap16 a.address.port).isLt
  obtain ⟨a', h1, h2, h3, h4, _⟩ := C15_set_port a a.getPort (by omega)
  cases he : serviceOfPort services a.getPort (protocolName a.protocol) with
  | none =>
    rw [he] at hsv
    refine ⟨a', ?_, h2, h4⟩
    have hn : a.getService sys = Inet.decStr a.getPort := hsv
    unfold Addr.setPortText
    rw [hn, hk.number a.getPort hport]
    have hci : Addr.toCInt (a.getPort : Int) = a.getPort := toCInt_self _ (by unfold IsCInt; omega)
    simp only [Addr.setPortStr, hci, h1]
  | some n =>
    have he' := he
    unfold serviceOfPort at he
    rw [Option.map_eq_some_iff] at he
    obtain ⟨s, hf, hn⟩ := he
    have hm := List.mem_of_find?_eq_some hf
    have hps := List.find?_some hf
    simp only [Bool.and_eq_true, beq_iff_eq] at hps
    obtain ⟨hc1, hc2⟩ := hc s hm
    have hl := hs s hm
    rw [hn] at hl
    rw [he'] at hsv
    have hg : a.getService sys = n := by rw [hsv]; exact if_pos hl
    have hdb : a.getProtocolName db = .ok (protocolName a.protocol) := by
      unfold Addr.getProtocolName
      rw [hk.getprotobynumber a.protocol (.inr hp)]
    have hcs : cstr (protocolName a.protocol) = protocolName a.protocol := by
      rcases hp with hp | hp <;> rw [hp] <;> decide
    have hw := hk.word s hm
    rw [hn] at hw
    have hgs : sys.getservbyname n (protocolName a.protocol) = some (BitVec.ofNat 16 a.getPort) := by
      rw [hk.getservbyname, ← hn, ← hps.2, hc2, hps.1]
      rfl
    refine ⟨a', ?_, h2, h4⟩
    unfold Addr.setPortText
    rw [hg, hw]
    simp only [hdb, hcs, hgs, Addr.setPortStr]
    have hb : ((BitVec.ofNat 16 a.getPort).toNat : Int) = a.getPort := by
      rw [BitVec.toNat_ofNat]; omega
    rw [hb, h1]

/-- A name which is neither a number nor the name of a service of the protocol is refused and changes nothing; a service of
the protocol sets its port. -/
theorem C84_set_port_name (sys : NameSys) (db : NetDb) (names : Bytes16 → BitVec 32 → Option Str) (services : List Service)
    (hk : Knows sys db names services) (hc : Consistent services) (a : Addr) (ha : Reach a) (name : Str) (hw : sys.convert name = none) :
    match portOfService services name (protocolName a.protocol) with
    | none => a.setPortText sys db name = (a, .ok false)
    | some port => ∃ a', a.setPortText sys db name = (a', .ok true) ∧ a'.getPort = port ∧ a'.portDefined = true ∧ SameButPort a a' := by
  have hp := (C17_structural_invariant a ha).2
  have hdb : a.getProtocolName db = .ok (protocolName a.protocol) := by
    unfold Addr.getProtocolName
    rw [hk.getprotobynumber a.protocol hp]
  have hcs : cstr (protocolName a.protocol) = protocolName a.protocol := by
    rcases hp with hp | hp | hp <;> rw [hp] <;> decide
  unfold Addr.setPortText
  rw [hw]
  simp only [hdb, hcs, hk.getservbyname, Addr.setPortStr]
  cases he : portOfService services name (protocolName a.protocol) with
  | none => rfl
  | some port =>
    have he' := he
    unfold portOfService at he
    rw [Option.map_eq_some_iff] at he
    obtain ⟨s, hf, hn⟩ := he
    have hlt : port < 65536 := by rw [← hn]; exact (hc s (List.mem_of_find?_eq_some hf)).1
    obtain ⟨a', h1, h2, h3, h4, _⟩ := C15_set_port a port (by omega)
    have hb : ((BitVec.ofNat 16 port).toNat : Int) = port := by rw [BitVec.toNat_ofNat]; omega
    refine ⟨a', ?_, h2, h3, h4⟩
    simp only [Option.map_some, hb, h1]

/-! ## A system -/

/-- Some lines of `/etc/services`. -/
def someServices : List Service :=
  [ { name := "domain".toList, aliases := [], port := 53, protocol := "tcp".toList },
    { name := "domain".toList, aliases := [], port := 53, protocol := "udp".toList },
    { name := "http".toList, aliases := ["www".toList], port := 80, protocol := "tcp".toList },
    { name := "syslog".toList, aliases := [], port := 514, protocol := "udp".toList } ]

example : Consistent someServices := by decide +kernel

example : ∀ s ∈ someServices, s.name ≠ [] ∧ s.name.length < 32 := by decide +kernel

/-- The system which answers according to these services and knows the name of `::1`. -/
def serviceNames (b : Bytes16) (_ : BitVec 32) : Option Str :=
  if b = #v[0, 0, 0, 0, 0, 0, 0, 0, 0, 0, 0, 0, 0, 0, 0, 1] then some "localhost".toList else none

def serviceSys : NameSys where
  host sa _ := (serviceNames sa.addr sa.scope).filter (·.length < 1025)
  service sa flags :=
    match serviceOfPort someServices (swap16 sa.port).toNat (protocolName (if flags &&& 16 = 0 then 6 else 17)) with
    | some name => if name.length < 32 then some name else none
    | none => some (Inet.decStr (swap16 sa.port).toNat)
  getservbyname name proto := (portOfService someServices name proto).map (BitVec.ofNat 16 ·)
  convert := sampleConvert

def serviceDb : NetDb where
  servByPort port proto :=
    match serviceOfPort someServices port proto with
    | some name => .found name
    | none => .notFound
  protoByNumber protocol := if protocol = 0 ∨ protocol = 6 ∨ protocol = 17 then .found (protocolName protocol) else .notFound

theorem service_knows : Knows serviceSys serviceDb serviceNames someServices where
  host _ _ _ _ _ := rfl
  service _ _ _ _ := rfl
  getservbyname _ _ := rfl
  getservbyport _ _ := rfl
  getprotobynumber _ h := if_pos h
  number n _ := by
    show sampleConvert (Inet.decStr n) = _
    rw [decStr_dec]
    exact sampleConvert_dec n
  word := by decide +kernel

/-- Port 80 of `::1`, with a protocol. -/
def webServer (protocol : Int) : Addr :=
  (AddrOp.run (.setProtocol protocol) (AddrOp.run (.setPort 80) (AddrOp.run .setIpv6Loopback Addr.default).1).1).1

theorem webServer_reach (protocol : Int) : Reach (webServer protocol) := .step _ (.step _ (.step _ .default))

example : (webServer 6).getName serviceSys = "localhost".toList ∧ (webServer 6).getService serviceSys = "http".toList
    ∧ (webServer 6).protocol = 6 ∧ (webServer 6).getPort = 80 ∧ (webServer 17).getService serviceSys = "80".toList := by
  decide +kernel

/-- C84 is false: an address of which the protocol is IP has a service, but it has no port by this name. -/
theorem C84_claim_fails : ¬ C84_claim := by
  intro h
  obtain ⟨a', h1, _⟩ := h serviceSys serviceDb serviceNames someServices service_knows (by decide +kernel) (by decide +kernel)
    (webServer 0) (webServer_reach 0) (by decide +kernel)
  have h2 : ((webServer 0).setPortText serviceSys serviceDb ((webServer 0).getService serviceSys)).2 = .ok false := by
    decide +kernel
  rw [h1] at h2
  cases h2

end Verif
