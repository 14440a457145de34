import Verif.Model.Socket
import Verif.Spec

/-!
# Specification of the sockets of the kernel

What Linux does with the system calls of `create_socket()`, `connect()`, `bind()`, `sendto()` and `recvfrom()`, as far as names
are concerned (ip(7), ipv6(7), udp(7), `inet_bind()`, `inet6_bind()`, `udpv6_sendmsg()`). A descriptor is the position of a
socket in the list. What the kernel is free to do is in `Choice`.
-/

namespace Verif.Spec

/-- A socket. `name` is what `getsockname()` answers, `queue` the datagrams received with the name of their sender. -/
structure Sock where
  family : BitVec 16
  type : BitVec 32
  name : Storage
  bound : Bool
  queue : List (Storage × List Byte)
  deriving DecidableEq

abbrev Net := List Sock

/-- Whether the call is accepted, the port given to a socket which needs one, and the name given to a socket which connects. -/
structure Choice where
  accept : Bool
  port : BitVec 16
  name : Storage

/-- A name of this family. -/
def hasFamily (family : BitVec 16) : Storage → Prop
  | .inet .. => family = 2
  | .inet6 .. => family = 10
  | .other => False

instance (family : BitVec 16) (n : Storage) : Decidable (hasFamily family n) := by
  cases n <;> unfold hasFamily <;> infer_instance

/-- The name with another port. -/
def withPort (port : BitVec 16) : Storage → Storage
  | .inet _ addr zero => .inet port addr zero
  | .inet6 _ flowinfo addr scope => .inet6 port flowinfo addr scope
  | .other => .other

/-- The name of a new socket: the unspecified address and no port. -/
def noName (family : BitVec 16) : Storage :=
  if family = 2 then .inet 0 (Vector.replicate 4 0) (Vector.replicate 8 0) else .inet6 0 0 (Vector.replicate 16 0) 0

/-- The call changes the socket, or is refused and answers -1. -/
def onSock (k : Net) (fd : Int) (f : Sock → Option Sock) : Net × Int :=
  if fd < 0 then (k, -1)
  else match k[fd.toNat]? with
    | none => (k, -1)
    | some s =>
      match f s with
      | none => (k, -1)
      | some s' => (k.set fd.toNat s', 0)

/-- The name which `bind()` gives to a socket: it must be of its family and of the size of its family. -/
def bindName (family : BitVec 16) (port : BitVec 16) : SockArg → Nat → Option Storage
  | .in4 n, len =>
    if family = 2 ∧ n.family = 2 ∧ len = 16 then some (.inet (if n.port = 0 then port else n.port) n.addr (Vector.replicate 8 0))
    else none
  | .in6 n, len =>
    if family = 10 ∧ n.family = 10 ∧ len = 28 then some (.inet6 (if n.port = 0 then port else n.port) 0 n.addr n.scope)
    else none

/-- The system calls. -/
def exec (c : Choice) : SysCall → Net → Net × Int
  | .socket family type _, k =>
    if c.accept then (k ++ [{ family := family, type := type &&& 15, name := noName family, bound := false, queue := [] }], k.length)
    else (k, -1)
  | .setReuseAddr _, k => (k, 0)
  | .connect fd _ _, k =>
    onSock k fd fun s =>
      if c.accept = true ∧ s.type = 1 ∧ hasFamily s.family c.name then some { s with name := c.name, bound := true } else none
  | .bind fd name len, k =>
    onSock k fd fun s =>
      if c.accept = true ∧ s.bound = false then
        (bindName s.family c.port name len).map fun n => { s with name := n, bound := true }
      else none
  | .sendto fd _ _ _, k =>
    onSock k fd fun s =>
      if c.accept then some (if s.bound then s else { s with name := withPort c.port s.name, bound := true }) else none

/-- Several calls. -/
def execAll (c : Choice) : List SysCall → Net → Net
  | [], k => k
  | x :: l, k => execAll c l (exec c x k).1

/-- The name of a sender: one of the family of the socket; those of IPv4 have no scope. -/
def SenderName (family : BitVec 16) : Storage → Prop
  | .inet .. => family = 2
  | .inet6 _ _ addr scope => family = 10 ∧ (isV4 (ip addr) → scope = 0)
  | .other => False

instance (family : BitVec 16) (n : Storage) : Decidable (SenderName family n) := by
  cases n <;> unfold SenderName <;> infer_instance

/-- A datagram arrives. -/
def deliver (fd : Int) (sender : Storage) (data : List Byte) (k : Net) : Net :=
  (onSock k fd fun s => if s.type = 2 ∧ SenderName s.family sender then some { s with queue := s.queue ++ [(sender, data)] } else none).1

/-- The first datagram is taken. -/
def take (fd : Int) (k : Net) : Net := (onSock k fd fun s => some { s with queue := s.queue.drop 1 }).1

/-- What the kernel answers about a socket. -/
def infoOf (s : Sock) : SocketInfo := { sockName := some s.name, peerName := none, type := some s.type }

/-- The first sixteen bytes of a name, as a `sockaddr_in`. -/
def cut4 : Storage → SockaddrIn
  | .inet port addr zero => { family := 2, port := port, addr := addr, zero := zero }
  | .inet6 port flowinfo addr _ =>
    { family := 10, port := port,
      addr := #v[flowinfo.setWidth 8, (flowinfo >>> 8).setWidth 8, (flowinfo >>> 16).setWidth 8, (flowinfo >>> 24).setWidth 8],
      zero := #v[addr[0], addr[1], addr[2], addr[3], addr[4], addr[5], addr[6], addr[7]] }
  | .other => { family := 0, port := 0, addr := Vector.replicate 4 0, zero := Vector.replicate 8 0 }

/-- A name as a `sockaddr_in6`; what a shorter name leaves as it was is in `old`. -/
def full6 (old : SockaddrIn6) : Storage → SockaddrIn6
  | .inet port _ _ => { old with family := 2, port := port }
  | .inet6 port flowinfo addr scope => { family := 10, port := port, flowinfo := flowinfo, addr := addr, scope := scope }
  | .other => { old with family := 0 }

/-- The two ends of a datagram as IPv6 sees them: number, port and scope. -/
structure Endpoint where
  ip : Nat
  port : BitVec 16
  scope : BitVec 32
  deriving DecidableEq

/-- The end which a name stands for. -/
def endpoint : Storage → Option Endpoint
  | .inet port addr _ => some { ip := v4 addr[0].toNat addr[1].toNat addr[2].toNat addr[3].toNat, port := port, scope := 0 }
  | .inet6 port _ addr scope => some { ip := ip addr, port := port, scope := scope }
  | .other => none

/-- The end which an object stands for. -/
def endOf (a : Addr) : Endpoint := { ip := ip a.getIpv6.addr, port := a.getIpv6.port, scope := a.getIpv6.scope }

/-- Where `sendto()` sends, given the family of the socket: both kinds of names are accepted by a socket of the family of IPv6. -/
def destination (family : BitVec 16) : SockArg → Nat → Option Endpoint
  | .in4 n, len =>
    if n.family = 2 ∧ len = 16 then
      some { ip := v4 n.addr[0].toNat n.addr[1].toNat n.addr[2].toNat n.addr[3].toNat, port := n.port, scope := 0 }
    else none
  | .in6 n, len =>
    if family = 10 ∧ n.family = 10 ∧ len = 28 then some { ip := ip n.addr, port := n.port, scope := n.scope } else none

/-- What happens to the sockets of a program which only uses the library: calls made with any object, and datagrams. -/
inductive NetOp
  | create (a : Addr) (flags : BitVec 32) (c : Choice)
  | connect (a : Addr) (fd : Int) (c : Choice)
  | bind (a : Addr) (fd : Int) (c : Choice)
  | sendto (a : Addr) (fd : Int) (buffer : List Byte) (c : Choice)
  | recvfrom (fd : Int)
  | deliver (fd : Int) (sender : Storage) (data : List Byte)

/-- The calls are those which the library makes; what it returns from the answers of the kernel is not needed here. -/
def NetOp.run : NetOp → Net → Net
  | .create a flags c, k => execAll c (a.createSocket flags (if c.accept then k.length else -1)).1 k
  | .connect a fd c, k => execAll c (a.connect fd 0).1 k
  | .bind a fd c, k => execAll c (a.bindConst fd 0).1 k
  | .sendto a fd buffer c, k => execAll c (a.sendto fd buffer 0).1 k
  | .recvfrom fd, k => take fd k
  | .deliver fd sender data, k => Spec.deliver fd sender data k

def runNet : List NetOp → Net → Net
  | [], k => k
  | op :: l, k => runNet l (op.run k)

end Verif.Spec
