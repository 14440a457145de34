import Verif.Model.Socket

/-!
# Histories of calls on one `addr` object

`AddrOp` lists every public function of class `addr` (addr.h:151-246) which can change the object. The functions
`get_network_type()`, `get_network_type_string()`, `is_valid()`, `is_lan()` and `is_wan()` are `const` but fill the
mutable cache, they are all the operation `askType`.
-/

namespace Verif

/-- One call of a public function which may change the object, with its arguments and with the answers of the world. -/
inductive AddrOp
  | setInterface (s : Str)
  | setHostname (s : Str)
  | setFromSocket (s : Int) (peer : Bool) (info : SocketInfo)
  | setIpv4 (inp : SockaddrIn)
  | setIpv4Loopback
  | setIpv6 (in6 : SockaddrIn6)
  | setIpv6Loopback
  | setPortDefined (d : Bool)
  | setPortStr (convert : Option Int) (service : Option (BitVec 16))
  | setPort (port : Int)
  | setProtocolDefined (d : Bool)
  | setProtocolStr (found : Option (Option Int))
  | setProtocol (p : Int)
  | setMaskDefined (d : Bool)
  | setMask (m : Bytes16)
  | setMaskCount (n : Int)
  | applyMask (inversed : Bool)
  | ipFromUint128 (u : BitVec 128)
  | askType
  | bind (s : Int) (answer : Int) (info : SocketInfo)
  | recvfrom (s : Int) (info : SocketInfo) (answer : Int) (from4 : SockaddrIn) (from6 : SockaddrIn6)
  | preInc
  | postInc
  | preDec
  | postDec
  | addAssign (offset : Int)
  | subAssign (offset : Int)

namespace AddrOp

/-- Forget the value returned by a function. -/
def drop {α : Type} (r : Addr × Res α) : Addr × Res Unit :=
  match r with
  | (a, .ok _) => (a, .ok ())
  | (a, .throw e) => (a, .throw e)
  | (a, .ub w) => (a, .ub w)

/-- The object after the call, and how the call ended. -/
def run : AddrOp → Addr → Addr × Res Unit
  | setInterface s, a => Addr.setInterface s a
  | setHostname s, a => Addr.setHostname s a
  | setFromSocket s peer info, a => Addr.setFromSocket s peer info a
  | setIpv4 i, a => Addr.setIpv4 i a
  | setIpv4Loopback, a => Addr.setIpv4Loopback a
  | setIpv6 i, a => Addr.setIpv6 i a
  | setIpv6Loopback, a => Addr.setIpv6Loopback a
  | setPortDefined d, a => Addr.setPortDefined d a
  | setPortStr c s, a => drop (Addr.setPortStr c s a)
  | setPort p, a => Addr.setPort p a
  | setProtocolDefined d, a => Addr.setProtocolDefined d a
  | setProtocolStr f, a => Addr.setProtocolStr f a
  | setProtocol p, a => Addr.setProtocol p a
  | setMaskDefined d, a => Addr.setMaskDefined d a
  | setMask m, a => Addr.setMask m a
  | setMaskCount n, a => Addr.setMaskCount n a
  | applyMask i, a => (a.applyMask i, .ok ())
  | ipFromUint128 u, a => (a.ipFromUint128 u, .ok ())
  | askType, a => (a.getNetworkType.1, .ok ())
  | bind s answer info, a => drop (Addr.bind s answer info a)
  | recvfrom s info answer f4 f6, a => drop (Addr.recvfrom s info answer f4 f6 a)
  | preInc, a => (a.preInc, .ok ())
  | postInc, a => (a.postInc.1, .ok ())
  | preDec, a => (a.preDec, .ok ())
  | postDec, a => (a.postDec.1, .ok ())
  | addAssign n, a => Addr.addAssign n a
  | subAssign n, a => Addr.subAssign n a

/-- A history: the calls are made one after the other, an exception being caught by the caller. -/
def runAll : List AddrOp → Addr → Addr
  | [], a => a
  | op :: ops, a => runAll ops (op.run a).1

end AddrOp

end Verif
