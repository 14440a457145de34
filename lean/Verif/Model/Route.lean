import Verif.Model.Addr
import Verif.Model.Parser

/-!
# Model of `libaddr/route.cpp`

The text of `/proc/net/route` is an argument; a file which cannot be opened reads as an empty text.
-/

namespace Verif

/-- The data members of class `route`, route.h:64-73. -/
structure Route where
  interfaceName : Str
  destination : Addr
  gateway : Addr
  flags : Int
  referenceCount : Int
  use : Int
  metric : Int
  mtu : Int
  window : Int
  irtt : Int
  deriving DecidableEq

namespace Route

/-- `readwords()`, route.cpp:82-112, called until it returns -1: the words of each line which ends with a newline. `words`
and `w` are the variables of the call under way. The word under way at the end of a line is dropped. -/
def readLines : Str → (words : List Str) → (w : Str) → List (List Str)
  | [], _, _ => []
  | c :: s, words, w =>
    if c = '\n' then words :: readLines s [] []
    else if c = '\t' ∨ c = ' ' then
      if w ≠ [] then readLines s (words ++ [w]) [] else readLines s words w
    else readLines s words (w ++ [c])

/-- `get_position()`, route.cpp:115-128. -/
def getPosition : List Str → Str → Int
  | [], _ => -1
  | h :: t, name => if h = name then 0 else if getPosition t name = -1 then -1 else getPosition t name + 1

/-- `get_value()`, route.cpp:131-141. -/
def getValue (entries : List Str) (pos : Int) : Res Str :=
  if pos < entries.length then
    if pos < 0 then .ub .outOfBounds else .ok (entries.getD pos.toNat [])
  else .ok []

/-- `hex_to_number()`, route.cpp:144-159. -/
def hexToNumber (c : Char) : Res Nat :=
  if '0'.toNat ≤ c.toNat ∧ c.toNat ≤ '9'.toNat then .ok (c.toNat - '0'.toNat)
  else if 'a'.toNat ≤ c.toNat ∧ c.toNat ≤ 'f'.toNat then .ok (c.toNat - 'a'.toNat + 10)
  else if 'A'.toNat ≤ c.toNat ∧ c.toNat ≤ 'F'.toNat then .ok (c.toNat - 'A'.toNat + 10)
  else .throw .invalidArgument

/-- The number of eight digits, route.cpp:172-181. -/
def joinDigits (n0 n1 n2 n3 n4 n5 n6 n7 : Nat) : BitVec 32 :=
  BitVec.ofNat 32 n7 <<< 0 ||| BitVec.ofNat 32 n6 <<< 4 ||| BitVec.ofNat 32 n5 <<< 8 ||| BitVec.ofNat 32 n4 <<< 12
    ||| BitVec.ofNat 32 n3 <<< 16 ||| BitVec.ofNat 32 n2 <<< 20 ||| BitVec.ofNat 32 n1 <<< 24 ||| BitVec.ofNat 32 n0 <<< 28

/-- The bytes in memory of a `uint32_t`, on a little-endian host. -/
def bytesOfWord (s : BitVec 32) : Bytes4 :=
  #v[s.setWidth 8, (s >>> 8).setWidth 8, (s >>> 16).setWidth 8, (s >>> 24).setWidth 8]

/-- `hex_to_addr()`, route.cpp:162-184. `s_addr` is the number as the little-endian host sees it. -/
def hexToAddr (address : Str) : Res Addr :=
  match address with
  | [c0, c1, c2, c3, c4, c5, c6, c7] =>
    hexToNumber c7 >>= fun n7 => hexToNumber c6 >>= fun n6 => hexToNumber c5 >>= fun n5 => hexToNumber c4 >>= fun n4 =>
    hexToNumber c3 >>= fun n3 => hexToNumber c2 >>= fun n2 => hexToNumber c1 >>= fun n1 => hexToNumber c0 >>= fun n0 =>
    Addr.ofIn { family := AF_INET, port := 0, zero := Vector.replicate 8 0,
                addr := bytesOfWord (joinDigits n0 n1 n2 n3 n4 n5 n6 n7) }
  | _ => .throw .invalidArgument

/-- `std::stol()`: blanks, a sign, decimal digits; whatever follows is ignored. -/
def stol (s : Str) : Res Int :=
  let t := s.dropWhile Parser.isSpace
  let neg := t.head? = some '-'
  let t := if t.head? = some '-' ∨ t.head? = some '+' then t.drop 1 else t
  let digits := t.takeWhile Char.isDigit
  if digits = [] then .throw .stdInvalidArgument
  else
    let n : Int := Nat.ofDigitChars 10 digits 0
    let n := if neg then -n else n
    if n < -9223372036854775808 ∨ 9223372036854775807 < n then .throw .stdOutOfRange else .ok n

/-- One line after the headers, route.cpp:307-334. The positions are those of the columns Iface, Destination, Gateway,
Flags, RefCnt, Use, Metric, Mask, MTU, Window and IRTT. -/
def readRoute (pos : Str → Int) (entries : List Str) : Res Route :=
  getValue entries (pos "Iface".toList) >>= fun name =>
  (getValue entries (pos "Destination".toList) >>= hexToAddr) >>= fun destination =>
  (getValue entries (pos "Gateway".toList) >>= hexToAddr) >>= fun gateway =>
  (getValue entries (pos "Flags".toList) >>= stol) >>= fun flags =>
  (getValue entries (pos "RefCnt".toList) >>= stol) >>= fun refcnt =>
  (getValue entries (pos "Use".toList) >>= stol) >>= fun use =>
  (getValue entries (pos "Metric".toList) >>= stol) >>= fun metric =>
  (getValue entries (pos "MTU".toList) >>= stol) >>= fun mtu =>
  (getValue entries (pos "Window".toList) >>= stol) >>= fun window =>
  (getValue entries (pos "IRTT".toList) >>= stol) >>= fun irtt =>
  getValue entries (pos "Mask".toList) >>= fun maskStr =>
  (if maskStr ≠ [] then
    hexToAddr maskStr >>= fun mask =>
    mask.getIpv4 >>= fun ipv4 =>
    .ok (Addr.setMask #v[255, 255, 255, 255, 255, 255, 255, 255, 255, 255, 255, 255,
      ipv4.addr[0], ipv4.addr[1], ipv4.addr[2], ipv4.addr[3]] destination).1
  else .ok destination) >>= fun destination =>
  .ok { interfaceName := name, destination := destination, gateway := gateway,
        flags := Addr.toCInt flags, referenceCount := Addr.toCInt refcnt, use := Addr.toCInt use,
        metric := Addr.toCInt metric, mtu := Addr.toCInt mtu, window := Addr.toCInt window, irtt := Addr.toCInt irtt }

/-- The loop over the lines, route.cpp:294-337. -/
def readRoutes (pos : Str → Int) : List (List Str) → Res (List Route)
  | [] => .ok []
  | entries :: lines =>
    readRoute pos entries >>= fun r => readRoutes pos lines >>= fun l => .ok (r :: l)

/-- `route::get_ipv4_routes()`, route.cpp:253-340. -/
def getIpv4Routes (file : Str) : Res (List Route) :=
  match readLines file [] [] with
  | [] => .ok []
  | headers :: lines =>
    if getPosition headers "Iface".toList = -1 ∨ getPosition headers "Destination".toList = -1
        ∨ getPosition headers "Gateway".toList = -1 then .ok []
    else readRoutes (getPosition headers) lines

/-- `find_default_route()`, route.cpp:422-438. -/
def findDefaultRoute (routes : List Route) : Option Route := routes.find? fun r => r.destination.isDefault

/-- `g_rtf_flag_names`, route.cpp:201-223, with the values of `<net/route.h>`. -/
def flagNames : List (BitVec 32 × Char) :=
  [(0x1, 'U'), (0x2, 'G'), (0x200, '!'), (0x4, 'H'), (0x8, 'R'), (0x10, 'D'), (0x20, 'M'), (0x10000, 'd'),
   (0x20000, 'a'), (0x40000, 'c'), (0x200000, 'o'), (0x1000000, 'C'), (0x2000000, 'f'), (0x4000000, 'p'),
   (0x80000000, 'l'), (0x40, 'u'), (0x80, 'w'), (0x100, 'i')]

/-- `route::flags_to_string()`, route.cpp:367-383. -/
def flagsToString (r : Route) : Str :=
  flagNames.filterMap fun fn => if BitVec.ofInt 32 r.flags &&& fn.1 ≠ 0 then some fn.2 else none

end Route

end Verif
