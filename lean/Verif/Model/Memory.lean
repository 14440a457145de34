import Verif.Model.Parser
import Verif.Model.Iface

/-!
# Model of the lists which the system allocates

`getaddrinfo()` and `getifaddrs()` allocate a list which the caller walks through its pointers and must free. The other models are
about the content of these lists; here are the pointers, and the `std::shared_ptr` with the deleters which free the lists.
-/

namespace Verif

/-- A `struct addrinfo` or a `struct ifaddrs` in memory: what it holds and `ai_next` or `ifa_next` (`none` is the null pointer). -/
structure Node (α : Type) where
  info : α
  next : Option Nat
  deriving DecidableEq

/-- The nodes which are allocated and their addresses. -/
abbrev Memory (α : Type) := List (Nat × Node α)

namespace Memory

variable {α β σ : Type}

/-- The system allocates a list; `fresh` is its choice of the addresses, which may be ones which were freed. -/
def allocList (fresh : Memory α → Nat) : List α → Memory α → Option Nat × Memory α
  | [], m => (none, m)
  | x :: l, m =>
    let (p, m) := allocList fresh l m
    (some (fresh m), (fresh m, { info := x, next := p }) :: m)

/-- `p->...`. -/
def read (m : Memory α) (p : Option Nat) : Res (Node α) :=
  match p with
  | none => .ub .nullDereference
  | some a =>
    match m.lookup a with
    | none => .ub .danglingPointer
    | some n => .ok n

/-- `freeaddrinfo()` and `freeifaddrs()` of the C library, called by the deleters of addr_parser.cpp:142-145 and iface.cpp:123-126: each
node is read for its successor, then freed. Both accept the null pointer. `fuel` is at least the number of nodes. -/
def freeList : (fuel : Nat) → (p : Option Nat) → Memory α → Res (Memory α)
  | _, none, m => .ok m
  | 0, some _, _ => .ub .danglingPointer
  | fuel + 1, some a, m => read m (some a) >>= fun n => freeList fuel n.next (m.filter fun x => x.1 ≠ a)

/-- `while(p != nullptr) { ...; p = p->next; }`, addr_parser.cpp:1818-1884 and iface.cpp:292: `body` is one turn. `fuel` is at least the
number of nodes. -/
def walk (body : α → β → σ → σ × Res β) : (fuel : Nat) → (p : Option Nat) → β → Memory α → σ → σ × Res β
  | _, none, acc, _, s => (s, .ok acc)
  | 0, some _, _, _, s => (s, .ub .danglingPointer)
  | fuel + 1, some a, acc, m, s =>
    match read m (some a) with
    | .ub w => (s, .ub w)
    | .throw e => (s, .throw e)
    | .ok n =>
      match body n.info acc s with
      | (s, .ok acc) => walk body fuel n.next acc m s
      | (s, .throw e) => (s, .throw e)
      | (s, .ub w) => (s, .ub w)

/-- The rest of the scope of a `std::shared_ptr` on the list `p`: its deleter is called at the end, also when there is an exception. -/
def guarded (p : Option Nat) (scope : Memory α → σ → σ × Res β) (m : Memory α) (s : σ) : Memory α × σ × Res β :=
  match scope m s with
  | (s, .ub w) => (m, s, .ub w)
  | (s, .ok x) =>
    match freeList m.length p m with
    | .ok m => (m, s, .ok x)
    | .throw e => (m, s, .throw e)
    | .ub w => (m, s, .ub w)
  | (s, .throw e) =>
    match freeList m.length p m with
    | .ok m => (m, s, .throw e)
    | .throw e => (m, s, .throw e)
    | .ub w => (m, s, .ub w)

end Memory

namespace Parser

/-- One turn of the loop of addr_parser.cpp:1818-1884; `first` and `result` are changed. -/
def addrinfoTurn (hostname : Str) (definedPort : Bool) : AddrInfo → Bool × List Range → PM (Bool × List Range)
  | .inet len protocol sa, (first, result) => do
    if len ≠ sizeofIn then
      emitError ("Unsupported address size (".toList ++ Inet.decStr len ++ ", expected".toList ++ Inet.decStr sizeofIn
        ++ ").".toList)
      return (first, result)
    else
      let r ← PM.lift (makeRange (Addr.ofIn sa) hostname protocol definedPort)
      return (first, result ++ [r])
  | .inet6 len protocol sa, (first, result) => do
    if len ≠ sizeofIn6 then
      emitError ("Unsupported address size (".toList ++ Inet.decStr len ++ ", expected ".toList ++ Inet.decStr sizeofIn6
        ++ ").".toList)
      return (first, result)
    else
      let r ← PM.lift (makeRange (Addr.ofIn6 sa) hostname protocol definedPort)
      return (first, result ++ [r])
  | .other family, (first, result) => do
    if first then emitError ("Unsupported address family ".toList ++ intStr family ++ ".".toList)
    return (false, result)

/-- `lookupAddress` with the memory, addr_parser.cpp:1780-1885: the list is freed at the end of the scope of `ai`. -/
def lookupAddressMem (fresh : Memory AddrInfo → Nat) (env : ParseEnv) (address port : Str) (definedPort : Bool) (result : List Range)
    (m : Memory AddrInfo) (p : Parser) : Memory AddrInfo × Parser × Res (List Range) :=
  match env.getaddrinfo (cstr address) (if port = [] then ['0'] else cstr port) false (hintProtocol p.config.protocol) with
  | .error r e =>
    let x := emitError ("Invalid address in \"".toList ++ address ++ (if port = [] then [] else [':']) ++ port
      ++ "\" error ".toList ++ intStr r ++ " -- ".toList ++ env.gaiStrerror r
      ++ (if e = 0 then [] else " (errno: ".toList ++ intStr e ++ " -- ".toList ++ env.strerror e ++ ").".toList)) p
    (m, x.1, .ok result)
  | .list l =>
    let (addrlist, m) := Memory.allocList fresh l m
    Memory.guarded addrlist (fun m p =>
      match Memory.walk (addrinfoTurn address definedPort) m.length addrlist (true, result) m p with
      | (p, .ok x) => (p, .ok x.2)
      | (p, .throw e) => (p, .throw e)
      | (p, .ub w) => (p, .ub w)) m p

/-- The first answer about a mask, addr_parser.cpp:2219-2263. -/
def maskAnswer (isIpv4 : Bool) : AddrInfo → PM (Option Bytes16)
  | .inet len _ sa => do
    if !isIpv4 then
      emitError "Incompatible address between the address and mask address (first was an IPv6 second an IPv4).".toList
      return none
    else if len ≠ sizeofIn then
      emitError ("Unsupported address size (".toList ++ Inet.decStr len ++ ", expected".toList
        ++ Inet.decStr sizeofIn ++ ").".toList)
      return none
    else return some #v[255, 255, 255, 255, 255, 255, 255, 255, 255, 255, 255, 255,
      sa.addr[0], sa.addr[1], sa.addr[2], sa.addr[3]]
  | .inet6 len _ sa => do
    if isIpv4 then
      emitError "Incompatible address between the address and mask address (first was an IPv4 second an IPv6).".toList
      return none
    else if len ≠ sizeofIn6 then
      emitError ("Unsupported address size (".toList ++ Inet.decStr len ++ ", expected ".toList
        ++ Inet.decStr sizeofIn6 ++ ").".toList)
      return none
    else return some sa.addr
  | .other _ => do
    emitError (if isIpv4 then
        "Incompatible address between the address and mask address (first was an IPv4 second an IPv6).".toList
      else "Incompatible address between the address and mask address (first was an IPv6 second an IPv4).".toList)
    return none

/-- `addressMask` with the memory, addr_parser.cpp:2125-2263: the list is freed at the end of the scope of `mask_ai`. -/
def addressMaskMem (fresh : Memory AddrInfo → Nat) (env : ParseEnv) (mask : Str) (cidr : Addr) (isIpv4 : Bool)
    (m : Memory AddrInfo) (p : Parser) : Memory AddrInfo × Parser × Res (Option Bytes16) :=
  let refuse (msg : Str) : Memory AddrInfo × Parser × Res (Option Bytes16) := (m, (emitError msg p).1, .ok none)
  if !p.config.flags .addressMask then
    refuse ("Address like mask not allowed (/".toList ++ mask ++ "), try with a simple number instead.".toList)
  else if isIpv4 && mask.head? = some '[' then
    refuse "The address uses the IPv4 syntax, the mask cannot use IPv6.".toList
  else if !isIpv4 && mask.head? ≠ some '[' then
    refuse "The address uses the IPv6 syntax, the mask cannot use IPv4.".toList
  else if !isIpv4 && mask.getLast? ≠ some ']' then
    refuse ("The IPv6 mask is missing the ']' (".toList ++ mask ++ ").".toList)
  else
    let t := if isIpv4 then mask else (mask.drop 1).dropLast
    if !isIpv4 && t = [] then (m, p, .ok none)
    else
      match env.getaddrinfo (cstr t) (Inet.decStr cidr.getPort) true (hintProtocol cidr.protocol) with
      | .error r e =>
        refuse ("Invalid mask in \"/".toList ++ mask ++ "\", error ".toList ++ intStr r ++ " -- ".toList
          ++ env.gaiStrerror r ++ " (errno: ".toList ++ intStr e ++ " -- ".toList ++ env.strerror e ++ ").".toList)
      | .list l =>
        let (masklist, m) := Memory.allocList fresh l m
        Memory.guarded masklist (fun m p =>
          match Memory.read m masklist with
          | .ok n => maskAnswer isIpv4 n.info p
          | .throw e => (p, .throw e)
          | .ub w => (p, .ub w)) m p

end Parser

namespace Iface

/-- One turn of the loop of iface.cpp:292-384. -/
def ifaddrsTurn (e : IfAddrs) (l : List Iface) : Res (List Iface) :=
  ofEntry e >>= fun i => .ok (match i with
    | some i => l ++ [i]
    | none => l)

/-- `getifaddrs()` and the loop over its list with the memory, iface.cpp:280-384: the list is freed at the end of the scope of
`auto_free`. `none` is the null pointer which is returned when `getifaddrs()` fails. -/
def getLocalAddressesMem (fresh : Memory IfAddrs → Nat) (answer : Option (List IfAddrs)) (m : Memory IfAddrs) :
    Memory IfAddrs × Res (Option (List Iface)) :=
  match answer with
  | none => (m, .ok none)
  | some l =>
    let (start, m) := Memory.allocList fresh l m
    let (m, _, r) := Memory.guarded start (fun m (_ : Unit) =>
      Memory.walk (fun e l _ => ((), ifaddrsTurn e l)) m.length start [] m ()) m ()
    (m, match r with
      | .ok l => .ok (some l)
      | .throw e => .throw e
      | .ub w => .ub w)

end Iface

end Verif
