import Verif.Model.Route
import Verif.Model.AddrOps

/-!
# Model of `libaddr/iface.cpp`

The cache of the interfaces is a transition system: one transition per critical section of `get_local_addresses()`, one for
the call to `getifaddrs()`, which happens without the lock, one for `reset_local_addresses_cache()` and one for
`set_local_addresses_cache_ttl()`. The system is polymorphic in the type of the lists. Threads are numbers.
-/

namespace Verif

namespace Cache

/-- The global variables, iface.cpp:93-113. `none` is the null pointer. -/
structure Globals (α : Type) where
  timeout : Int
  list : Option α
  ttl : Nat

/-- Where a thread is within `get_local_addresses()`. -/
inductive Pc (α : Type)
  /-- Outside of the function. -/
  | idle
  /-- After the first critical section. -/
  | fetching
  /-- After the loop, before the second critical section. -/
  | fetched (l : α)

/-- All the threads and the global variables. -/
structure State (α : Type) where
  globals : Globals α
  pc : Nat → Pc α

/-- What `getifaddrs()` and the loop which follows did. -/
inductive Answer (α : Type)
  | list (l : α)
  /-- `getifaddrs()` failed. -/
  | fails
  /-- An exception (`set_ipv4()` of a structure of another family). -/
  | throws

/-- The transitions, with the thread and the time. -/
inductive Action (α : Type)
  | enter (t : Nat) (now : Int)
  | fetch (t : Nat) (now : Int) (answer : Answer α)
  | store (t : Nat) (now : Int)
  | reset (now : Int)
  | setTtl (now : Int) (seconds : Nat)

/-- The end of a call to `get_local_addresses()`, if the transition is one. -/
inductive Out (α : Type)
  | nothing
  | returns (l : Option α)
  | throws

/-- The initial values, iface.cpp:93-113. -/
def init (α : Type) : State α := { globals := { timeout := 0, list := none, ttl := 300 }, pc := fun _ => .idle }

/-- The state with the thread `t` moved. -/
def State.move {α : Type} (s : State α) (t : Nat) (p : Pc α) : State α :=
  { s with pc := fun u => if u = t then p else s.pc u }

/-- One transition; `none` when the thread is elsewhere. `empty` is the empty list put in the cache at iface.cpp:275. -/
def step {α : Type} (empty : α) (s : State α) : Action α → Option (State α × Out α)
  -- iface.cpp:267-276
  | .enter t now =>
    match s.pc t with
    | .idle =>
      match s.globals.list with
      | some l =>
        if s.globals.timeout ≥ now then some (s, .returns (some l))
        else some ({ s with globals := { s.globals with list := some empty } }.move t .fetching, .nothing)
      | none => some ({ s with globals := { s.globals with list := some empty } }.move t .fetching, .nothing)
    | _ => none
  -- iface.cpp:280-384
  | .fetch t _ answer =>
    match s.pc t with
    | .fetching =>
      match answer with
      | .list l => some (s.move t (.fetched l), .nothing)
      | .fails => some (s.move t .idle, .returns none)
      | .throws => some (s.move t .idle, .throws)
    | _ => none
  -- iface.cpp:386-392
  | .store t now =>
    match s.pc t with
    | .fetched l =>
      some ({ s with globals := { s.globals with timeout := now + s.globals.ttl, list := some l } }.move t .idle,
        .returns (some l))
    | _ => none
  -- iface.cpp:402-408
  | .reset _ => some ({ s with globals := { s.globals with timeout := 0, list := none } }, .nothing)
  -- iface.cpp:426-429
  | .setTtl _ seconds => some ({ s with globals := { s.globals with ttl := seconds } }, .nothing)

/-- The executions: the history, the last event first, and the state after it. -/
inductive Exec {α : Type} (empty : α) : List (Action α × Out α) → State α → Prop
  | start : Exec empty [] (init α)
  | next {h : List (Action α × Out α)} {s s' : State α} {a : Action α} {o : Out α} :
      Exec empty h s → step empty s a = some (s', o) → Exec empty ((a, o) :: h) s'

end Cache

/-- `IFF_BROADCAST` on Linux. -/
def IFF_BROADCAST : BitVec 32 := 0x2

/-- `IFF_POINTOPOINT` on Linux. -/
def IFF_POINTOPOINT : BitVec 32 := 0x10

/-- A `struct sockaddr` whose size is not known: the two ways to read the same memory. -/
structure SockaddrAny where
  in4 : SockaddrIn
  in6 : SockaddrIn6

/-- One `struct ifaddrs`. `ifa_broadaddr` and `ifa_dstaddr` are two names of the same pointer (`ifu`). -/
structure IfAddrs where
  name : Str
  flags : BitVec 32
  addr : Option SockaddrAny
  netmask : Option SockaddrAny
  ifu : Option SockaddrAny

/-- An `iface` object, iface.h:82-86. -/
structure Iface where
  name : Str
  flags : BitVec 32
  address : Addr
  broadcast : Addr
  destination : Addr

namespace Iface

/-- `set_ipv4()` and `set_ipv6()` on a new address, as a result. -/
def addrOf (r : Addr × Res Unit) : Res Addr :=
  match r with
  | (a, .ok ()) => .ok a
  | (_, .throw e) => .throw e
  | (_, .ub w) => .ub w

/-- The broadcast or destination address, iface.cpp:325-334 and 357-366: `set` is `set_ipv4()` or `set_ipv6()`. -/
def optionalAddr (flags flag : BitVec 32) (ifu : Option SockaddrAny) (set : SockaddrAny → SM Addr Unit) : Res Addr :=
  if flags &&& flag ≠ 0 then
    match ifu with
    | some s => addrOf (set s Addr.default)
    | none => .ok Addr.default
  else .ok Addr.default

/-- The mask of an IPv4 interface, iface.cpp:343-348. `s_addr` is the four bytes read by a little-endian host. -/
def mask4 (s : SockaddrIn) : Bytes16 :=
  #v[255, 255, 255, 255, 255, 255, 255, 255, 255, 255, 255, 255, s.addr[0], s.addr[1], s.addr[2], s.addr[3]]

/-- One turn of the loop, iface.cpp:292-384: `none` is `continue`. -/
def ofEntry (e : IfAddrs) : Res (Option Iface) :=
  match e.addr with
  | none => .ok none
  | some s =>
    if s.in4.family = AF_INET then
      addrOf (Addr.setIpv4 s.in4 Addr.default) >>= fun address =>
      optionalAddr e.flags IFF_BROADCAST e.ifu (fun s => Addr.setIpv4 s.in4) >>= fun broadcast =>
      optionalAddr e.flags IFF_POINTOPOINT e.ifu (fun s => Addr.setIpv4 s.in4) >>= fun destination =>
      let address := match e.netmask with
        | some m => (Addr.setMask (mask4 m.in4) address).1
        | none => address
      .ok (some { name := e.name, flags := e.flags, address := address, broadcast := broadcast, destination := destination })
    else if s.in4.family = AF_INET6 then
      addrOf (Addr.setIpv6 s.in6 Addr.default) >>= fun address =>
      optionalAddr e.flags IFF_BROADCAST e.ifu (fun s => Addr.setIpv6 s.in6) >>= fun broadcast =>
      optionalAddr e.flags IFF_POINTOPOINT e.ifu (fun s => Addr.setIpv6 s.in6) >>= fun destination =>
      let address := match e.netmask with
        | some m => (Addr.setMask m.in6.addr address).1
        | none => address
      .ok (some { name := e.name, flags := e.flags, address := address, broadcast := broadcast, destination := destination })
    else .ok none

/-- The loop of `iface::get_local_addresses()`, iface.cpp:290-384. -/
def ofEntries : List IfAddrs → Res (List Iface)
  | [] => .ok []
  | e :: es =>
    ofEntry e >>= fun i =>
    ofEntries es >>= fun l =>
    .ok (match i with
      | some i => i :: l
      | none => l)

/-- `iface::has_broadcast_address()`, iface.cpp:540-543. -/
def hasBroadcastAddress (i : Iface) : Bool := i.flags &&& IFF_BROADCAST != 0

/-- `iface::has_destination_address()`, iface.cpp:565-568. -/
def hasDestinationAddress (i : Iface) : Bool := i.flags &&& IFF_POINTOPOINT != 0

/-- `find_addr_interface()`, iface.cpp:611-657. `interfaces` is the pointer returned by `get_local_addresses()`, `file` the
content of `/proc/net/route`. -/
def findAddrInterface (interfaces : Option (List Iface)) (file : Str) (a : Addr) (allowDefault : Bool) :
    Res (Option Iface) :=
  match interfaces with
  | none => .ub .nullDereference
  | some l =>
    match l.find? fun i => i.address.matchAddr a with
    | some i => .ok (some i)
    | none =>
      if !allowDefault then .ok none
      else
        Route.getIpv4Routes file >>= fun routes =>
        match Route.findDefaultRoute routes with
        | none => .ok none
        | some r => .ok (l.find? fun i => i.name == r.interfaceName)

/-- `is_broadcast_address()`, iface.cpp:697-711. -/
def isBroadcastAddress (interfaces : Option (List Iface)) (a : Addr) : Res Bool :=
  if !a.isIpv4 then .ok false
  else
    findAddrInterface interfaces [] a false >>= fun i =>
    match i with
    | none => .ok false
    | some i => .ok (i.broadcast.eq a)

/-- The loop of `get_interface_name_index()`, iface.cpp:198-214. `nameOf` is `if_indextoname()`; `fuel` is the number of
indexes up to the largest `unsigned int`. -/
def nameIndexLoop (nameOf : Nat → Option Str) : (fuel index : Nat) → List (Nat × Str)
  | 0, _ => []
  | fuel + 1, index =>
    match nameOf index with
    | none => []
    | some name => (index, name) :: nameIndexLoop nameOf fuel (index + 1)

/-- `get_interface_name_index()`, iface.cpp:192-216. After the largest `unsigned int` comes 0, which is not an interface. -/
def nameIndex (nameOf : Nat → Option Str) : List (Nat × Str) := nameIndexLoop nameOf 4294967295 1

end Iface

end Verif
