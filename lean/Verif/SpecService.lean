import Verif.Model.AddrName
import Verif.Spec

/-!
# Specification of the names which a system knows

The services as `/etc/services` lists them (services(5)), the names of addresses, and what the functions of the C library
answer about them: getnameinfo(3), getservbyname_r(3), getservbyport_r(3), getprotobynumber_r(3).
-/

namespace Verif.Spec

/-- One line of `/etc/services`. -/
structure Service where
  name : Str
  aliases : List Str
  port : Nat
  protocol : Str
  deriving DecidableEq

/-- The name of the service of a port: the first line counts. -/
def serviceOfPort (l : List Service) (port : Nat) (protocol : Str) : Option Str :=
  (l.find? fun s => s.port == port && s.protocol == protocol).map (·.name)

/-- The port of a service: the first line counts. -/
def portOfService (l : List Service) (name protocol : Str) : Option Nat :=
  (l.find? fun s => (s.name == name || s.aliases.contains name) && s.protocol == protocol).map (·.port)

/-- A port has 16 bits, and the name of a service leads back to it. -/
def Consistent (l : List Service) : Prop :=
  ∀ s ∈ l, s.port < 65536 ∧ portOfService l s.name s.protocol = some s.port

instance (l : List Service) : Decidable (Consistent l) := inferInstanceAs (Decidable (∀ s ∈ l, _))

/-- The name of a protocol. -/
def protocolName (protocol : Int) : Str :=
  if protocol = 0 then ['i', 'p'] else if protocol = 6 then ['t', 'c', 'p'] else ['u', 'd', 'p']

/-- The system answers according to its names of addresses and its services. Names must fit `NI_MAXHOST` and `NI_MAXSERV`;
`getnameinfo()` knows TCP and UDP only and writes the number of a port without a service. The flags are those of `netdb.h`: 1 for a
numeric host, 2 for a numeric service, 4 for a name without its domain, 8 when a name is required, 16 for UDP. -/
structure Knows (sys : NameSys) (db : NetDb) (names : Bytes16 → (scope : BitVec 32) → Option Str) (services : List Service) : Prop where
  host : ∀ (sa : SockaddrIn6) (flags : BitVec 32), sa.family = 10 →
    flags &&& 8 ≠ 0 → flags &&& 5 = 0 →
    sys.host sa flags = (names sa.addr sa.scope).filter (·.length < 1025)
  service : ∀ (sa : SockaddrIn6) (flags : BitVec 32), sa.family = 10 → flags &&& 2 = 0 →
    sys.service sa flags =
      match serviceOfPort services (swap16 sa.port).toNat (protocolName (if flags &&& 16 = 0 then 6 else 17)) with
      | some name => if name.length < 32 then some name else none
      | none => some (Inet.decStr (swap16 sa.port).toNat)
  getservbyname : ∀ name proto, sys.getservbyname name proto = (portOfService services name proto).map (BitVec.ofNat 16 ·)
  getservbyport : ∀ port proto, db.servByPort port proto =
    match serviceOfPort services port proto with
    | some name => .found name
    | none => .notFound
  getprotobynumber : ∀ protocol, protocol = 0 ∨ protocol = 6 ∨ protocol = 17 → db.protoByNumber protocol = .found (protocolName protocol)
  number : ∀ n : Nat, n < 65536 → sys.convert (Inet.decStr n) = some (n : Int)
  word : ∀ s ∈ services, sys.convert s.name = none

end Verif.Spec
