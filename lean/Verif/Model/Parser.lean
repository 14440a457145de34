import Verif.Model.Range
import Verif.Model.InetText
import Verif.Model.AddrText
import Verif.Model.Socket

/-!
# Model of `libaddr/addr_parser.h` and `libaddr/addr_parser.cpp`

The functions which may change the parser or emit an error are state transformers (`PM`), so that what stays in the parser
after an exception is visible. The vectors passed by reference (`result`) are given and returned.

Simplifications: `f_error_count` is an unbounded integer; the functions of the C library and of advgetopt which the parser
calls are parameters (`ParseEnv`); `isspace()` is the one of the "C" locale; positions in a string are below `2^64`.
-/

namespace Verif

/-- `allow_t`, addr_parser.h:42-67. -/
inductive Allow
  | address | requiredAddress | multiAddressesCommas | multiAddressesSpaces | multiAddressesNewlines | addressLookup
  | addressRange | port | requiredPort | mask | addressMask | commentHash | commentSemicolon | multiPortsSemicolons
  | multiPortsCommas | portRange
  deriving DecidableEq, Repr

/-- The flag with a given number; `none` is a number which the tests of addr_parser.cpp:780-781 refuse. -/
def Allow.ofInt (n : Int) : Option Allow :=
  if n < 0 then none
  else [Allow.address, .requiredAddress, .multiAddressesCommas, .multiAddressesSpaces, .multiAddressesNewlines,
    .addressLookup, .addressRange, .port, .requiredPort, .mask, .addressMask, .commentHash, .commentSemicolon,
    .multiPortsSemicolons, .multiPortsCommas, .portRange][n.toNat]?

/-- `SORT_IPV6_FIRST`, addr_parser.h:73. -/
def SORT_IPV6_FIRST : BitVec 64 := 0x0001
/-- `SORT_IPV4_FIRST`, addr_parser.h:74. -/
def SORT_IPV4_FIRST : BitVec 64 := 0x0002
/-- `SORT_FULL`, addr_parser.h:75. -/
def SORT_FULL : BitVec 64 := 0x0004
/-- `SORT_MERGE`, addr_parser.h:76. -/
def SORT_MERGE : BitVec 64 := 0x0008
/-- `SORT_NO_EMPTY`, addr_parser.h:77. -/
def SORT_NO_EMPTY : BitVec 64 := 0x0010

/-- One node of the list built by `getaddrinfo()`: the members `ai_family`, `ai_addrlen`, `ai_protocol` and `ai_addr`. -/
inductive AddrInfo
  | inet (addrlen : Nat) (protocol : Int) (sa : SockaddrIn)
  | inet6 (addrlen : Nat) (protocol : Int) (sa : SockaddrIn6)
  | other (family : Int)
  deriving DecidableEq

/-- What `getaddrinfo()` answers: an error with the value of `errno`, or a list. -/
inductive GaiAnswer
  | error (r : Int) (errno : Int)
  | list (l : List AddrInfo)
  deriving DecidableEq

/-- The functions outside of libaddr which the parser calls. -/
structure ParseEnv where
  /-- `getaddrinfo(host, service, hints)`; of the hints, `AI_NUMERICHOST` and `ai_protocol` vary. -/
  getaddrinfo : (host service : Str) → (numericHost : Bool) → (protocol : Int) → GaiAnswer
  gaiStrerror : Int → Str
  strerror : Int → Str
  /-- `advgetopt::validator_integer::convert_string()`. -/
  convert : Str → Option Int
  /-- `getprotobyname_r()`. -/
  getprotobyname : Str → Option Int

/-- The members of class `addr_parser` which configure it, addr_parser.h:127-134. -/
structure Config where
  flags : Allow → Bool
  sort : BitVec 64
  defaultAddress4 : Str
  defaultAddress6 : Str
  defaultMask4 : Str
  defaultMask6 : Str
  protocol : Int
  defaultPort : Int

/-- The data members of class `addr_parser`, addr_parser.h:127-136. -/
structure Parser where
  config : Config
  error : Str
  errorCount : Int

/-- A member function of `addr_parser`. -/
def PM (α : Type) := Parser → Parser × Res α

namespace PM

/-- Return a value. -/
def pure {α : Type} (a : α) : PM α := fun p => (p, .ok a)

/-- Sequencing: the changes made to the parser before an exception stay. -/
def bind {α β : Type} (m : PM α) (f : α → PM β) : PM β := fun p =>
  match m p with
  | (p', .ok a) => f a p'
  | (p', .throw e) => (p', .throw e)
  | (p', .ub w) => (p', .ub w)

instance : Monad PM where
  pure := PM.pure
  bind := PM.bind

/-- The outcome of a call which does not touch the parser. -/
def lift {α : Type} (r : Res α) : PM α := fun p => (p, r)

/-- Throw. -/
def throw {α : Type} (e : Exc) : PM α := fun p => (p, .throw e)

/-- Read the configuration. -/
def config : PM Config := fun p => (p, .ok p.config)

/-- Change the configuration. -/
def setConfig (c : Config) : PM Unit := fun p => ({ p with config := c }, .ok ())

end PM

namespace Parser

/-- The member initializers of addr_parser.h:127-136. -/
def blank : Parser :=
  { config := { flags := fun _ => false, sort := 0, defaultAddress4 := [], defaultAddress6 := [], defaultMask4 := [],
                defaultMask6 := [], protocol := -1, defaultPort := -1 },
    error := [], errorCount := 0 }

/-- Assign one element of `f_flags`. -/
def setFlag (c : Config) (flag : Allow) (allow : Bool) : Config :=
  { c with flags := fun f => if f = flag then allow else c.flags f }

/-- `addr_parser::set_allow()`, addr_parser.cpp:778-809. The flag is the number behind the enumeration. -/
def setAllow (flag : Int) (allow : Bool) : PM Unit :=
  match Allow.ofInt flag with
  | none => PM.throw .invalidArgument
  | some f => do
    let c ← PM.config
    let c := setFlag c f allow
    if allow then
      match f with
      | .multiAddressesCommas => PM.setConfig (setFlag c .multiPortsCommas false)
      | .multiPortsCommas => PM.setConfig (setFlag c .multiAddressesCommas false)
      | _ => PM.setConfig c
    else PM.setConfig c

/-- `addr_parser::get_allow()`, addr_parser.cpp:828-837. The flag is the number behind the enumeration. -/
def getAllowInt (flag : Int) : PM Bool :=
  match Allow.ofInt flag with
  | none => PM.throw .invalidArgument
  | some f => fun p => (p, .ok (p.config.flags f))

/-- `addr_parser::get_allow()` called with one of the enumerators, addr_parser.cpp:836. -/
def getAllow (flag : Allow) : PM Bool := fun p => (p, .ok (p.config.flags flag))

/-- `addr_parser::addr_parser()`, addr_parser.cpp:161-171: the flags `ALLOW_ADDRESS`, `ALLOW_ADDRESS_LOOKUP` and
`ALLOW_PORT`. -/
def create : Parser :=
  { blank with config := setFlag (setFlag (setFlag blank.config .address true) .addressLookup true) .port true }

/-- `addr_parser::emit_error()`, addr_parser.cpp:888-893. -/
def emitError (msg : Str) : PM Unit := fun p =>
  ({ p with error := p.error ++ msg ++ ['\n'], errorCount := p.errorCount + 1 }, .ok ())

/-- `addr_parser::has_errors()`, addr_parser.cpp:866-869. -/
def hasErrors (p : Parser) : Bool := !p.error.isEmpty

/-- `addr_parser::error_messages()`, addr_parser.cpp:914-917. -/
def errorMessages (p : Parser) : Str := p.error

/-- `addr_parser::error_count()`, addr_parser.cpp:933-936. -/
def getErrorCount (p : Parser) : Int := p.errorCount

/-- `addr_parser::clear_errors()`, addr_parser.cpp:951-955. -/
def clearErrors : PM Unit := fun p => ({ p with error := [], errorCount := 0 }, .ok ())

/-- `addr_parser::set_default_address()`, addr_parser.cpp:228-253. -/
def setDefaultAddress (address : Str) : PM Unit := do
  let c ← PM.config
  match address with
  | [] => PM.setConfig { c with defaultAddress4 := [], defaultAddress6 := [] }
  | '[' :: rest =>
    if address.getLast? ≠ some ']' then PM.throw .invalidArgument
    else PM.setConfig { c with defaultAddress6 := rest.dropLast }
  | _ =>
    if address.contains ':' then PM.setConfig { c with defaultAddress6 := address }
    else PM.setConfig { c with defaultAddress4 := address }

/-- `addr_parser::set_default_port(int)`, addr_parser.cpp:361-370. -/
def setDefaultPort (port : Int) : PM Unit := do
  if port < -1 ∨ port > 65535 then PM.throw .invalidArgument
  else
    let c ← PM.config
    PM.setConfig { c with defaultPort := port }

/-- `addr_parser::set_default_port(std::string const &)`, addr_parser.cpp:310-326: the 64 bit number is passed as an
`int`. -/
def setDefaultPortStr (env : ParseEnv) (port : Str) : PM Unit :=
  if port = [] then setDefaultPort (-1)
  else match env.convert port with
    | none => PM.throw .invalidArgument
    | some n => setDefaultPort (Addr.toCInt n)

/-- `addr_parser::set_default_mask()`, addr_parser.cpp:450-496. -/
def setDefaultMask (env : ParseEnv) (mask : Str) : PM Unit := do
  let c ← PM.config
  if mask = [] then PM.setConfig { c with defaultMask4 := [], defaultMask6 := [] }
  else
    let frontIpv6 := mask.head? == some '['
    let backIpv6 := mask.getLast? == some ']'
    if frontIpv6 && backIpv6 then PM.setConfig { c with defaultMask6 := (mask.drop 1).dropLast }
    else if frontIpv6 || backIpv6 then PM.throw .invalidArgument
    else if mask.contains ':' then PM.setConfig { c with defaultMask6 := mask }
    else match env.convert mask with
      | some m =>
        if m < 0 ∨ m > 128 then PM.throw .invalidArgument
        else if m > 32 then PM.setConfig { c with defaultMask6 := mask }
        else PM.setConfig { c with defaultMask4 := mask }
      | none => PM.setConfig { c with defaultMask4 := mask }

/-- `addr_parser::set_protocol(int)`, addr_parser.cpp:611-631. -/
def setProtocol (protocol : Int) : PM Unit := do
  if protocol = IPPROTO_IP ∨ protocol = IPPROTO_TCP ∨ protocol = IPPROTO_UDP then
    let c ← PM.config
    PM.setConfig { c with protocol := protocol }
  else PM.throw .invalidArgument

/-- `addr_parser::set_protocol(std::string const &)`, addr_parser.cpp:568-587. -/
def setProtocolStr (env : ParseEnv) (protocol : Str) : PM Unit :=
  match env.getprotobyname (cstr protocol) with
  | none => PM.throw .invalidArgument
  | some n => do
    let c ← PM.config
    PM.setConfig { c with protocol := n }

/-- `addr_parser::clear_protocol()`, addr_parser.cpp:647-650. -/
def clearProtocol : PM Unit := do
  let c ← PM.config
  PM.setConfig { c with protocol := -1 }

/-- `addr_parser::set_sort_order()`, addr_parser.cpp:697-705. -/
def setSortOrder (sort : BitVec 64) : PM Unit := do
  if sort &&& (SORT_IPV6_FIRST ||| SORT_IPV4_FIRST) = SORT_IPV6_FIRST ||| SORT_IPV4_FIRST then PM.throw .invalidArgument
  else
    let c ← PM.config
    PM.setConfig { c with sort := sort }

/-! ## Strings -/

/-- `isspace()` in the "C" locale. -/
def isSpace (c : Char) : Bool := c = ' ' || c = '\t' || c = '\n' || c = '\x0b' || c = '\x0c' || c = '\r'

/-- `snapdev::trim_string()` with its default parameters: spaces are removed at both ends. -/
def trimString (s : Str) : Str := ((s.dropWhile isSpace).reverse.dropWhile isSpace).reverse

/-- `find(c)` followed by `substr(0, p)` and `substr(p + 1)`; `none` is `npos`. -/
def splitFirst (c : Char) : Str → Option (Str × Str)
  | [] => none
  | x :: s => if x = c then some ([], s) else (splitFirst c s).map fun r => (x :: r.1, r.2)

/-- A `size_t` subtraction. -/
def subSize (a b : Nat) : Nat := if b ≤ a then a - b else a + 2 ^ 64 - b

/-- `std::string::substr()`. -/
def substr (s : Str) (pos n : Nat) : Res Str :=
  if pos > s.length then .throw .stdOutOfRange else .ok ((s.drop pos).take n)

/-- The result of the loops which convert a mask to a number. -/
inductive Digits
  | number (n : Nat)
  | tooLarge
  | notNumber
  deriving DecidableEq

/-- The loops of addr_parser.cpp:1352-1374 (limit 1000) and addr_parser.cpp:2065-2088 (limit 10000). -/
def scanDigits (limit : Nat) : Str → (acc : Nat) → Digits
  | [], acc => .number acc
  | c :: s, acc =>
    match Inet.decVal c with
    | some d => if acc * 10 + d > limit then .tooLarge else scanDigits limit s (acc * 10 + d)
    | none => .notNumber

/-- A call on a local object, whose new value is given back. -/
def onLocal (m : SM Addr Unit) (a : Addr) : Res Addr :=
  match m a with
  | (a', .ok ()) => .ok a'
  | (_, .throw e) => .throw e
  | (_, .ub w) => .ub w

/-! ## Parsing -/

/-- The lines which complete an address once it is built, addr_parser.cpp:1834-1845, 1860-1869, 1924-1933, 1945-1954. -/
def makeRange (a : Res Addr) (hostname : Str) (protocol : Int) (definedPort : Bool) : Res Range := do
  let a ← a
  let a ← onLocal (Addr.setHostname hostname) a
  let a ← if protocol ≠ -1 then onLocal (Addr.setProtocol protocol) a else .ok a
  let a ← onLocal (Addr.setPortDefined definedPort) a
  return Range.default.setFrom a

/-- The `ai_protocol` hint, addr_parser.cpp:1764-1776 and 2141-2153 (the `ai_socktype` goes with it). -/
def hintProtocol (protocol : Int) : Int :=
  if protocol = IPPROTO_TCP ∨ protocol = IPPROTO_UDP then protocol else 0

/-- The loop over the answer of `getaddrinfo()`, addr_parser.cpp:1817-1884. -/
def addrinfoLoop (hostname : Str) (definedPort : Bool) : List AddrInfo → (first : Bool) → List Range → PM (List Range)
  | [], _, result => pure result
  | .inet len protocol sa :: l, first, result => do
    if len ≠ sizeofIn then
      emitError ("Unsupported address size (".toList ++ Inet.decStr len ++ ", expected".toList ++ Inet.decStr sizeofIn
        ++ ").".toList)
      addrinfoLoop hostname definedPort l first result
    else
      let r ← PM.lift (makeRange (Addr.ofIn sa) hostname protocol definedPort)
      addrinfoLoop hostname definedPort l first (result ++ [r])
  | .inet6 len protocol sa :: l, first, result => do
    if len ≠ sizeofIn6 then
      emitError ("Unsupported address size (".toList ++ Inet.decStr len ++ ", expected ".toList ++ Inet.decStr sizeofIn6
        ++ ").".toList)
      addrinfoLoop hostname definedPort l first result
    else
      let r ← PM.lift (makeRange (Addr.ofIn6 sa) hostname protocol definedPort)
      addrinfoLoop hostname definedPort l first (result ++ [r])
  | .other family :: l, first, result => do
    if first then emitError ("Unsupported address family ".toList ++ intStr family ++ ".".toList)
    addrinfoLoop hostname definedPort l false result

/-- The part of `addr_parser::parse_address_port()` with lookups, addr_parser.cpp:1780-1885. -/
def lookupAddress (env : ParseEnv) (address port : Str) (definedPort : Bool) (result : List Range) : PM (List Range) := do
  let c ← PM.config
  match env.getaddrinfo (cstr address) (if port = [] then ['0'] else cstr port) false (hintProtocol c.protocol) with
  | .error r e =>
    emitError ("Invalid address in \"".toList ++ address ++ (if port = [] then [] else [':']) ++ port
      ++ "\" error ".toList ++ intStr r ++ " -- ".toList ++ env.gaiStrerror r
      ++ (if e = 0 then [] else " (errno: ".toList ++ intStr e ++ " -- ".toList ++ env.strerror e ++ ").".toList))
    return result
  | .list l => addrinfoLoop address definedPort l true result

/-- The conversion of the address without lookup, addr_parser.cpp:1917-1962, once the port is known. -/
def numericAddress (address : Str) (port : Int) (definedPort : Bool) (result : List Range) : PM (List Range) := do
  let c ← PM.config
  let netPort := swap16 (BitVec.ofInt 16 port)
  match Inet.pton4 (cstr address) with
  | some b =>
    let r ← PM.lift (makeRange (Addr.ofIn { family := AF_INET, port := netPort, addr := b, zero := Vector.replicate 8 0 })
      address c.protocol definedPort)
    return result ++ [r]
  | none =>
    match Inet.pton6 (cstr address) with
    | some b =>
      let r ← PM.lift (makeRange (Addr.ofIn6 { family := AF_INET6, port := netPort, flowinfo := 0, scope := 0, addr := b })
        address c.protocol definedPort)
      return result ++ [r]
    | none =>
      emitError ("Unknown address in \"".toList ++ address ++ "\" (no DNS lookup was allowed).".toList)
      return result

/-- The part of `addr_parser::parse_address_port()` without lookup, addr_parser.cpp:1886-1963. -/
def noLookupAddress (env : ParseEnv) (address port : Str) (definedPort : Bool) (result : List Range) : PM (List Range) := do
  let portAllowed ← getAllow .port
  let portRequired ← getAllow .requiredPort
  if portRequired || port ≠ [] then
    match env.convert port with
    | none =>
      emitError ("invalid port in \"".toList ++ port ++ "\" (no service name lookup allowed).".toList)
      return result
    | some n =>
      if n < 0 ∨ n > 65535 then
        emitError ("invalid port in \"".toList ++ port ++ "\" (no service name lookup allowed).".toList)
        return result
      else if !portAllowed && !portRequired then
        emitError ("Found a port (\"".toList ++ port ++ "\") when it is not allowed.".toList)
        return result
      else numericAddress address n definedPort result
  else numericAddress address 0 definedPort result

/-- `addr_parser::parse_address_port()`, addr_parser.cpp:1701-1964. -/
def parseAddressPort (env : ParseEnv) (address port : Str) (result : List Range) (ipv6 : Bool) : PM (List Range) := do
  let c ← PM.config
  let definedPort := port ≠ []
  if !definedPort && c.flags .requiredPort then
    emitError "Required port is missing.".toList
    return result
  else
    let port := if !definedPort && c.defaultPort ≠ -1 then intStr c.defaultPort else port
    if address = [] && c.flags .requiredAddress then
      emitError "Required address is missing.".toList
      return result
    else
      let address :=
        if address = [] then
          if ipv6 then (if c.defaultAddress6 = [] then "::".toList else c.defaultAddress6)
          else (if c.defaultAddress4 = [] then "0.0.0.0".toList else c.defaultAddress4)
        else address
      if c.flags .addressLookup then lookupAddress env address port definedPort result
      else noLookupAddress env address port definedPort result

/-- The loop of addr_parser.cpp:2001-2012 on the elements after the first one. -/
def dropDuplicates (first : Addr) : List Range → Res (List Range)
  | [] => .ok []
  | r :: l => do
    let next ← onLocal (Addr.setProtocol first.protocol) r.lo
    if Addr.ne first next then return r :: l else dropDuplicates first l

/-- `addr_parser::parse_address_port_ignore_duplicates()`, addr_parser.cpp:1983-2014. -/
def ignoreDuplicates (env : ParseEnv) (address port : Str) (result : List Range) (ipv6 : Bool) : PM (List Range) := do
  let result ← parseAddressPort env address port result ipv6
  match result with
  | [] => return []
  | r :: l => do
    let l ← PM.lift (dropDuplicates r.lo l)
    return r :: l

/-- One bound of a range, addr_parser.cpp:1620-1635 and 1637-1659: `none` when the function returns without a range. -/
def parseBound (env : ParseEnv) (which : Str) (address port : Str) (ipv6 : Bool) : PM (Option Range) := do
  let l ← ignoreDuplicates env address port [] ipv6
  match l with
  | [] => return none
  | [r] => return some r
  | _ =>
    emitError ("The \"".toList ++ which ++ "\" of an address range must be exactly one address.".toList)
    return none

/-- `addr_parser::parse_address_range_port()`, addr_parser.cpp:1593-1678. -/
def parseAddressRangePort (env : ParseEnv) (addresses port : Str) (result : List Range) (ipv6 : Bool) :
    PM (List Range) := do
  let c ← PM.config
  match if c.flags .addressRange then splitFirst '-' addresses else none with
  | none => parseAddressPort env addresses port result ipv6
  | some ([], []) =>
    emitError "An address range requires at least one of the \"from\" or \"to\" addresses.".toList
    return result
  | some (frm, []) =>
    match ← parseBound env "from".toList frm port ipv6 with
    | none => return result
    | some r => return result ++ [r]
  | some ([], to) =>
    match ← parseBound env "to".toList to port ipv6 with
    | none => return result
    | some r => return result ++ [r.swapFromTo]
  | some (frm, to) =>
    match ← parseBound env "from".toList frm port ipv6 with
    | none => return result
    | some r =>
      match ← parseBound env "to".toList to port ipv6 with
      | none => return result
      | some t =>
        let r := r.setTo t.swapFromTo.hi
        if c.sort &&& SORT_NO_EMPTY = 0 || !r.isEmpty then return result ++ [r] else return result

/-- `addr_parser::parse_address4()`, addr_parser.cpp:1458-1491. -/
def parseAddress4 (env : ParseEnv) (inp : Str) (result : List Range) : PM (List Range) := do
  let c ← PM.config
  match splitFirst ':' inp with
  | none => parseAddressRangePort env inp [] result false
  | some (address, port) =>
    if c.flags .port || c.flags .requiredPort then parseAddressRangePort env address port result false
    else
      emitError ("Port not allowed (".toList ++ inp ++ ").".toList)
      return result

/-- `addr_parser::parse_address6()`, addr_parser.cpp:1511-1571. -/
def parseAddress6 (env : ParseEnv) (inp : Str) (colons : Nat) (result : List Range) : PM (List Range) := do
  let c ← PM.config
  if inp.head? = some '[' then
    match splitFirst ']' (inp.drop 1) with
    | none =>
      emitError ("IPv6 is missing the ']' (".toList ++ inp ++ ").".toList)
      return result
    | some (address, []) => parseAddressRangePort env address [] result true
    | some (address, x :: port) =>
      if x ≠ ':' then
        emitError ("The IPv6 address \"".toList ++ inp ++ "\" is followed by unknown data.".toList)
        return result
      else if !c.flags .port && !c.flags .requiredPort then
        emitError ("Port not allowed (".toList ++ inp ++ ").".toList)
        return result
      else parseAddressRangePort env address port result true
  else if colons = 1 then
    match splitFirst ':' inp with
    | none => PM.throw .logicError
    | some (address, port) => parseAddressRangePort env address port result true
  else parseAddressRangePort env inp [] result true

/-- `addr_parser::parse_address()`, addr_parser.cpp:1315-1442. The boolean returned is `true` for the IPv4 syntax. -/
def parseAddress (env : ParseEnv) (inp mask : Str) (result : List Range) : PM (Bool × List Range) := do
  let c ← PM.config
  let colons := inp.count ':'
  let as4 : PM (Bool × List Range) := do return (true, ← parseAddress4 env inp result)
  let as6 : PM (Bool × List Range) := do return (false, ← parseAddress6 env inp colons result)
  if colons ≥ 2 then as6
  else if inp = [] ∨ inp.head? = some ':' then
    if mask ≠ [] then
      if mask.head? = some '[' then as6
      else match scanDigits 1000 (cstr mask) 0 with
        | .number n => if n > 32 then as6 else as4
        | _ => as4
    else if c.defaultAddress4 = [] ∧ c.defaultAddress6 ≠ [] then as6
    else as4
  else if inp.head? = some '[' ∨ ']' ∈ inp then as6
  else if !c.flags .port && !c.flags .requiredPort then
    match splitFirst ':' inp with
    | none => as4
    | some (before, _) => if '.' ∈ before then as4 else as6
  else as4

/-- The loop which clears the low bits of `mask_bits`, addr_parser.cpp:2118-2123: the next index is `n - 1`. -/
def clearLow : (n count : Nat) → Bytes16 → Res Bytes16
  | 0, _, _ => .ub .outOfBounds
  | n + 1, count, bits =>
    if count > 8 then clearLow n (count - 8) (bits.setIfInBounds n 0)
    else .ok (bits.setIfInBounds n (BitVec.ofNat 8 (255 <<< count)))

/-- The mask written as an address, addr_parser.cpp:2125-2263. `none`: no mask is set. -/
def addressMask (env : ParseEnv) (mask : Str) (cidr : Addr) (isIpv4 : Bool) : PM (Option Bytes16) := do
  let c ← PM.config
  if !c.flags .addressMask then
    emitError ("Address like mask not allowed (/".toList ++ mask ++ "), try with a simple number instead.".toList)
    return none
  else if isIpv4 && mask.head? = some '[' then
    emitError "The address uses the IPv4 syntax, the mask cannot use IPv6.".toList
    return none
  else if !isIpv4 && mask.head? ≠ some '[' then
    emitError "The address uses the IPv6 syntax, the mask cannot use IPv4.".toList
    return none
  else if !isIpv4 && mask.getLast? ≠ some ']' then
    emitError ("The IPv6 mask is missing the ']' (".toList ++ mask ++ ").".toList)
    return none
  else
    let m := if isIpv4 then mask else (mask.drop 1).dropLast
    if !isIpv4 && m = [] then return none
    else
      match env.getaddrinfo (cstr m) (Inet.decStr cidr.getPort) true (hintProtocol cidr.protocol) with
      | .error r e =>
        emitError ("Invalid mask in \"/".toList ++ mask ++ "\", error ".toList ++ intStr r ++ " -- ".toList
          ++ env.gaiStrerror r ++ " (errno: ".toList ++ intStr e ++ " -- ".toList ++ env.strerror e ++ ").".toList)
        return none
      | .list [] => PM.lift (.ub .nullDereference)
      | .list (.inet len _ sa :: _) =>
        if !isIpv4 then
          emitError "Incompatible address between the address and mask address (first was an IPv6 second an IPv4).".toList
          return none
        else if len ≠ sizeofIn then
          emitError ("Unsupported address size (".toList ++ Inet.decStr len ++ ", expected".toList
            ++ Inet.decStr sizeofIn ++ ").".toList)
          return none
        else return some #v[255, 255, 255, 255, 255, 255, 255, 255, 255, 255, 255, 255,
          sa.addr[0], sa.addr[1], sa.addr[2], sa.addr[3]]
      | .list (.inet6 len _ sa :: _) =>
        if isIpv4 then
          emitError "Incompatible address between the address and mask address (first was an IPv4 second an IPv6).".toList
          return none
        else if len ≠ sizeofIn6 then
          emitError ("Unsupported address size (".toList ++ Inet.decStr len ++ ", expected ".toList
            ++ Inet.decStr sizeofIn6 ++ ").".toList)
          return none
        else return some sa.addr
      | .list (.other _ :: _) =>
        emitError (if isIpv4 then
            "Incompatible address between the address and mask address (first was an IPv4 second an IPv6).".toList
          else "Incompatible address between the address and mask address (first was an IPv6 second an IPv4).".toList)
        return none

/-- `addr_parser::parse_mask()`, addr_parser.cpp:2042-2266. The address `cidr` is given back. -/
def parseMask (env : ParseEnv) (mask : Str) (cidr : Addr) (isIpv4 : Bool) : PM Addr := do
  if mask = [] then return cidr
  else match scanDigits 10000 (cstr mask) 0 with
    | .tooLarge =>
      emitError ("Mask size too large (".toList ++ mask ++ ", expected a maximum of 128).".toList)
      return cidr
    | .number n =>
      if isIpv4 && n > 32 then
        emitError ("Unsupported mask size (".toList ++ Inet.decStr n ++ ", expected 32 at the most for an IPv4).".toList)
        return cidr
      else if !isIpv4 && n > 128 then
        emitError ("Unsupported mask size (".toList ++ Inet.decStr n ++ ", expected 128 at the most for an IPv6).".toList)
        return cidr
      else
        let bits ← PM.lift (clearLow 16 (if isIpv4 then 32 - n else 128 - n) (Vector.replicate 16 255))
        PM.lift (onLocal (Addr.setMask bits) cidr)
    | .notNumber =>
      match ← addressMask env mask cidr isIpv4 with
      | none => return cidr
      | some bits => PM.lift (onLocal (Addr.setMask bits) cidr)

/-- The mask to use for an address, addr_parser.cpp:1242-1267. -/
def chooseMask (c : Config) (mask : Str) (isIpv4 : Bool) : Str :=
  if mask ≠ [] then mask
  else if isIpv4 then c.defaultMask4
  else if c.defaultMask6 ≠ [] ∧ ':' ∈ c.defaultMask6 then '[' :: c.defaultMask6 ++ [']']
  else []

/-- The loop over the addresses, addr_parser.cpp:1240-1273. -/
def maskLoop (env : ParseEnv) (mask : Str) (isIpv4 : Bool) : List Range → PM (List Range)
  | [] => return []
  | am :: l => do
    let c ← PM.config
    let a ← parseMask env (chooseMask c mask isIpv4) am.lo (isIpv4 && am.lo.isIpv4)
    let l ← maskLoop env mask isIpv4 l
    return { am with lo := a } :: l

/-- Read `f_error_count`. -/
def errorCountNow : PM Int := fun p => (p, .ok p.errorCount)

/-- `addr_parser::parse_cidr()`, addr_parser.cpp:1215-1287. -/
def parseCidr (env : ParseEnv) (inp : Str) (result : List Range) : PM (List Range) := do
  let c ← PM.config
  let address := trimString inp
  if c.flags .mask then
    let (address, mask) := (splitFirst '/' address).getD (address, [])
    let errcnt ← errorCountNow
    let (isIpv4, addrMask) ← parseAddress env address mask []
    let addrMask ← maskLoop env mask isIpv4 addrMask
    let now ← errorCountNow
    if errcnt = now then return result ++ addrMask else return result
  else
    let (_, result) ← parseAddress env address [] result
    return result

/-- The separators, addr_parser.cpp:1042-1056. -/
def separators (c : Config) : Str :=
  (if c.flags .multiAddressesCommas then [','] else []) ++ (if c.flags .multiAddressesSpaces then [' '] else [])
    ++ (if c.flags .multiAddressesNewlines then ['\n'] else [])

/-- The characters which start a comment, addr_parser.cpp:1058-1060. -/
def commentChars (c : Config) : Str :=
  (if c.flags .commentHash then ['#'] else []) ++ (if c.flags .commentSemicolon then [';'] else [])

/-- `while(ec > 0 && isspace(in[ec - 1])) --ec;`, addr_parser.cpp:1078-1081. -/
def trimEnd (inp : Str) : (ec : Nat) → Nat
  | 0 => 0
  | ec + 1 => if isSpace (inp.getD ec ' ') then trimEnd inp ec else ec + 1

/-- The position `s` of the first character which is not a space, addr_parser.cpp:1065-1069. -/
def singleStart (inp : Str) : Nat := (inp.takeWhile isSpace).length

/-- The position `ec` of the end of the address, addr_parser.cpp:1064,1070-1081. -/
def singleEnd (c : Config) (inp : Str) : Nat :=
  let s := singleStart inp
  let ec :=
    if commentChars c ≠ [] then s + ((inp.drop s).takeWhile fun x => !(commentChars c).contains x).length
    else inp.length
  trimEnd inp ec

/-- The branch without separators, addr_parser.cpp:1062-1092. -/
def parseSingle (env : ParseEnv) (inp : Str) (result : List Range) : PM (List Range) := do
  let c ← PM.config
  let s := singleStart inp
  let ec := singleEnd c inp
  if s ≠ 0 ∨ ec ≠ inp.length then
    let entry ← PM.lift (substr inp s (subSize ec s))
    parseCidr env entry result
  else parseCidr env inp result

/-- What is before the comment in an entry, addr_parser.cpp:1102-1109. -/
def entryText (c : Config) (entry : Str) : Str :=
  if commentChars c ≠ [] then entry.takeWhile fun x => !(commentChars c).contains x else entry

/-- The end of the entry moved to the end of the line, addr_parser.cpp:1110-1116: `after` is the input from `e` on. -/
def skipLine (c : Config) (after : Str) : Str :=
  if commentChars c ≠ [] ∧ c.flags .multiAddressesNewlines ∧ after ≠ [] ∧ after.head? ≠ some '\n' then
    after.dropWhile (· ≠ '\n')
  else after

/-- `if(ec > s) parse_cidr()`, addr_parser.cpp:1121-1124. -/
def parseEntry (env : ParseEnv) (text : Str) (result : List Range) : PM (List Range) :=
  if text ≠ [] then parseCidr env text result else pure result

/-- The loop of the branch with separators, addr_parser.cpp:1095-1127, on what remains of the input (from `s` on). `fuel`
is at least its length. -/
def parseList (env : ParseEnv) : (fuel : Nat) → (rest : Str) → (result : List Range) → PM (List Range)
  | 0, _, result => pure result
  | fuel + 1, rest, result => do
    let c ← PM.config
    if rest = [] then return result
    else
      let entry := rest.takeWhile fun x => !(separators c).contains x
      let after := rest.dropWhile fun x => !(separators c).contains x
      if entry ≠ [] then
        let result ← parseEntry env (entryText c entry) result
        parseList env fuel ((skipLine c after).drop 1) result
      else parseList env fuel (after.drop 1) result

/-- Whether a comparator meets the requirements of `std::stable_sort()` on the elements of a list: it always answers, and
it is a strict weak order. -/
def isStrictWeakOrder (lt : Range → Range → Res Bool) (l : List Range) : Bool :=
  (l.all fun a => l.all fun b => (lt a b).isOk)
    && (l.all fun a => lt a a = .ok false)
    && (l.all fun a => l.all fun b => l.all fun c =>
          !(lt a b = .ok true && lt b c = .ok true) || lt a c = .ok true)
    && (l.all fun a => l.all fun b => l.all fun c =>
          !(lt a b = .ok false && lt b a = .ok false && lt b c = .ok false && lt c b = .ok false)
            || (lt a c = .ok false && lt c a = .ok false))

/-- Insert a range in a sorted list, before the first range it is not after. -/
def orderedInsert (lt : Range → Range → Res Bool) (a : Range) : List Range → List Range
  | [] => [a]
  | b :: l => if lt b a = .ok true then b :: orderedInsert lt a l else a :: b :: l

/-- `std::stable_sort()`: undefined unless the comparator is a strict weak order. The result of a stable sort is unique, so
which algorithm is used does not matter. -/
def stableSort (lt : Range → Range → Res Bool) (l : List Range) : Res (List Range) :=
  if isStrictWeakOrder lt l then .ok (l.foldr (orderedInsert lt) []) else .ub .badComparator

/-- The merge loop, addr_parser.cpp:1142-1156: `cur` is `result[idx]`, the list what follows it. -/
def mergeLoop : (cur : Range) → List Range → Res (List Range)
  | cur, [] => .ok [cur]
  | cur, next :: l => do
    let r ← cur.unionIfPossible next
    if r.isDefined && !r.isEmpty then mergeLoop r l
    else
      let l ← mergeLoop next l
      return cur :: l

/-- addr_parser.cpp:1137-1157. -/
def mergeAll : List Range → Res (List Range)
  | [] => .ok []
  | r :: l => mergeLoop r l

/-- The comparators of addr_parser.cpp:1166-1178 and 1185-1197. -/
def familyFirst (family : Compare) (a b : Range) : Res Bool := do
  let c ← a.compare b false
  return c = family || c = .first

/-- The sorting part of `addr_parser::parse()`, addr_parser.cpp:1130-1198. -/
def sortResult (sort : BitVec 64) (result : List Range) : Res (List Range) := do
  let result ← if sort &&& (SORT_FULL ||| SORT_MERGE) ≠ 0 then stableSort Range.lt result else .ok result
  let result ← if sort &&& SORT_MERGE ≠ 0 then mergeAll result else .ok result
  if sort &&& SORT_IPV4_FIRST ≠ 0 then stableSort (familyFirst .ipv4VsIpv6) result
  else if sort &&& SORT_IPV6_FIRST ≠ 0 then stableSort (familyFirst .ipv6VsIpv4) result
  else .ok result

/-- The two branches of `addr_parser::parse()`, addr_parser.cpp:1062-1128. -/
def parseUnsorted (env : ParseEnv) (inp : Str) : PM (List Range) := do
  let c ← PM.config
  if separators c = [] then parseSingle env inp [] else parseList env inp.length inp []

/-- `addr_parser::parse()`, addr_parser.cpp:1037-1201. -/
def parse (env : ParseEnv) (inp : Str) : PM (List Range) := do
  let c ← PM.config
  let result ← parseUnsorted env inp
  PM.lift (sortResult c.sort result)

/-- `string_to_addr()`, addr_parser.cpp:2314-2390, as the outcome of a call on a new parser. -/
def stringToAddrOn (env : ParseEnv) (a defaultAddress : Str) (defaultPort : Int) (protocol : Str) (mask : Bool) :
    PM Addr := do
  if defaultAddress ≠ [] then setDefaultAddress defaultAddress
  if defaultPort ≠ -1 then setDefaultPort defaultPort
  if protocol ≠ [] then setProtocolStr env protocol
  setAllow 9 mask
  let result ← parse env a
  let result :=
    if result.length ≠ 1 ∧ protocol = [] then result.filter fun r => !(r.hasFrom && r.lo.protocol != IPPROTO_TCP)
    else result
  match result with
  | [r] =>
    if r.hasTo || r.isRange then PM.throw .invalidArgument
    else if !r.hasFrom then PM.throw .invalidArgument
    else return r.lo
  | _ => PM.throw .invalidArgument

/-- `string_to_addr()`, addr_parser.cpp:2314-2390. -/
def stringToAddr (env : ParseEnv) (a defaultAddress : Str) (defaultPort : Int) (protocol : Str) (mask : Bool) : Res Addr :=
  (stringToAddrOn env a defaultAddress defaultPort protocol mask create).2

end Parser

/-- The public member functions of `addr_parser` which change it. -/
inductive ParserOp
  | setAllow (flag : Int) (allow : Bool)
  | setDefaultAddress (address : Str)
  | setDefaultPort (port : Int)
  | setDefaultPortStr (port : Str)
  | setDefaultMask (mask : Str)
  | setProtocol (protocol : Int)
  | setProtocolStr (protocol : Str)
  | clearProtocol
  | setSortOrder (sort : BitVec 64)
  | emitError (msg : Str)
  | clearErrors
  | parse (inp : Str)

/-- One call, of which only the effect on the parser is kept (it may have thrown). -/
def ParserOp.run (env : ParseEnv) : ParserOp → Parser → Parser
  | .setAllow flag allow, p => (Parser.setAllow flag allow p).1
  | .setDefaultAddress address, p => (Parser.setDefaultAddress address p).1
  | .setDefaultPort port, p => (Parser.setDefaultPort port p).1
  | .setDefaultPortStr port, p => (Parser.setDefaultPortStr env port p).1
  | .setDefaultMask mask, p => (Parser.setDefaultMask env mask p).1
  | .setProtocol protocol, p => (Parser.setProtocol protocol p).1
  | .setProtocolStr protocol, p => (Parser.setProtocolStr env protocol p).1
  | .clearProtocol, p => (Parser.clearProtocol p).1
  | .setSortOrder sort, p => (Parser.setSortOrder sort p).1
  | .emitError msg, p => (Parser.emitError msg p).1
  | .clearErrors, p => (Parser.clearErrors p).1
  | .parse inp, p => (Parser.parse env inp p).1

/-- A sequence of calls; the environment may answer differently each time. -/
def ParserOp.runAll : List (ParseEnv × ParserOp) → Parser → Parser
  | [], p => p
  | (env, op) :: l, p => runAll l (op.run env p)

end Verif
