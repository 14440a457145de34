import Verif.SpecParse
import Verif.SpecText

/-!
# Specification: the error messages of the parser, and what each of them says about the text
-/

namespace Verif.Spec

/-- A number with its sign. -/
def signed (n : Int) : Str := if n < 0 then '-' :: dec n.natAbs else dec n.natAbs

/-- The text used as the mask: what follows a slash, or a default mask. -/
def MaskText (c : Config) (inp m : Str) : Prop :=
  c.flags .mask = true ∧ m ≠ [] ∧ ('/' :: m <:+: inp ∨ m = c.defaultMask4 ∨ m = "[".toList ++ c.defaultMask6 ++ "]".toList)

/-- What the name service answers when it is asked for the text `t` and the port `q`. -/
def Answer (env : ParseEnv) (c : Config) (inp t q : Str) (ans : GaiAnswer) : Prop :=
  c.flags .addressLookup = true ∧ AddressText c inp t ∧ (∃ written, PortText c inp q written)
    ∧ env.getaddrinfo (cstr t) (if q = [] then "0".toList else cstr q) false
        (if c.protocol = IPPROTO_TCP ∨ c.protocol = IPPROTO_UDP then c.protocol else 0) = ans

/-- What the name service answers when it is asked for a mask, which is a number: `m` is the mask with its brackets, if any. -/
def MaskAnswer (env : ParseEnv) (c : Config) (inp m : Str) (six : Bool) (ans : GaiAnswer) : Prop :=
  c.flags .addressMask = true ∧ MaskText c inp m
    ∧ ∃ host service protocol, (if six = true then m = "[".toList ++ host ++ "]".toList else m = host ∧ m.head? ≠ some '[')
        ∧ env.getaddrinfo (cstr host) service true protocol = ans

/-- The digits at the start of the mask. -/
def MaskDigits (m ds : Str) : Prop := ds <+: cstr m ∧ ∀ x ∈ ds, x.isDigit = true

/-- `msg` is one of the messages of the parser, and what it says is true of the text `inp` and of the configuration `c`. -/
inductive Complaint (env : ParseEnv) (c : Config) (inp : Str) : (msg : Str) → Prop
  /-- Ports are not allowed, and there is a colon. -/
  | portNotAllowed {t : Str} (hp : c.flags .port = false) (hr : c.flags .requiredPort = false) (ht : t <:+: inp) (hc : ':' ∈ t) :
      Complaint env c inp ("Port not allowed (".toList ++ t ++ ").".toList)
  /-- Ports are not allowed, and there is one which is a number. -/
  | portFound {q : Str} {written : Bool} {n : Nat} (hl : c.flags .addressLookup = false) (hp : c.flags .port = false)
      (hr : c.flags .requiredPort = false) (hq : PortText c inp q written) (hne : q ≠ []) (hn : env.convert q = some (n : Int))
      (hn' : n < 2 ^ 16) : Complaint env c inp ("Found a port (\"".toList ++ q ++ "\") when it is not allowed.".toList)
  /-- A port is not the number of a port. -/
  | badPort {q : Str} {written : Bool} (hl : c.flags .addressLookup = false) (hq : PortText c inp q written) (hne : q ≠ [])
      (hn : ¬ ∃ n : Nat, env.convert q = some (n : Int) ∧ n < 2 ^ 16) :
      Complaint env c inp ("invalid port in \"".toList ++ q ++ "\" (no service name lookup allowed).".toList)
  /-- A port is required. -/
  | noPort (hr : c.flags .requiredPort = true) : Complaint env c inp "Required port is missing.".toList
  /-- An address is required. -/
  | noAddress (hr : c.flags .requiredAddress = true) : Complaint env c inp "Required address is missing.".toList
  /-- A text is not an address. -/
  | unknownAddress {t : Str} (hl : c.flags .addressLookup = false) (ht : AddressText c inp t) (hw : ¬ ∃ b, Writes t b) :
      Complaint env c inp ("Unknown address in \"".toList ++ t ++ "\" (no DNS lookup was allowed).".toList)
  /-- The name service refused a text. -/
  | invalidAddress {t q : Str} {r e : Int} (ha : Answer env c inp t q (.error r e)) :
      Complaint env c inp ("Invalid address in \"".toList ++ t ++ (if q = [] then [] else ":".toList) ++ q ++ "\" error ".toList ++ signed r
        ++ " -- ".toList ++ env.gaiStrerror r
        ++ (if e = 0 then [] else " (errno: ".toList ++ signed e ++ " -- ".toList ++ env.strerror e ++ ").".toList))
  /-- The name service answered an IPv4 address of a wrong size. -/
  | size4 {t q : Str} {l : List AddrInfo} {len : Nat} {protocol : Int} {sa : SockaddrIn} (ha : Answer env c inp t q (.list l))
      (hx : .inet len protocol sa ∈ l) (hlen : len ≠ 16) :
      Complaint env c inp ("Unsupported address size (".toList ++ dec len ++ ", expected16).".toList)
  /-- The name service answered an IPv6 address of a wrong size. -/
  | size6 {t q : Str} {l : List AddrInfo} {len : Nat} {protocol : Int} {sa : SockaddrIn6} (ha : Answer env c inp t q (.list l))
      (hx : .inet6 len protocol sa ∈ l) (hlen : len ≠ 28) :
      Complaint env c inp ("Unsupported address size (".toList ++ dec len ++ ", expected 28).".toList)
  /-- The name service answered something else than an IP address. -/
  | family {t q : Str} {l : List AddrInfo} {family : Int} (ha : Answer env c inp t q (.list l)) (hx : .other family ∈ l) :
      Complaint env c inp ("Unsupported address family ".toList ++ signed family ++ ".".toList)
  /-- A range has no bound. -/
  | noBounds (hr : c.flags .addressRange = true) (ht : "-".toList <:+: inp) :
      Complaint env c inp "An address range requires at least one of the \"from\" or \"to\" addresses.".toList
  /-- The name service answered two different addresses for a bound. -/
  | manyBounds {w t q : Str} {l : List AddrInfo} {x y : AddrInfo} {sx sy : SockaddrIn6} (hw : w = "from".toList ∨ w = "to".toList)
      (hr : c.flags .addressRange = true) (ht : "-".toList <:+: inp) (ha : Answer env c inp t q (.list l)) (hx : x ∈ l) (hy : y ∈ l)
      (hsx : Holds x sx) (hsy : Holds y sy) (hne : sx.addr ≠ sy.addr) :
      Complaint env c inp ("The \"".toList ++ w ++ "\" of an address range must be exactly one address.".toList)
  /-- A bracket is not closed. -/
  | noBracket {t : Str} (ht : '[' :: t <:+: inp) (hb : ']' ∉ t) :
      Complaint env c inp ("IPv6 is missing the ']' (".toList ++ "[".toList ++ t ++ ").".toList)
  /-- Something else than a port follows the brackets. -/
  | afterBracket {t s : Str} {x : Char} (ht : "[".toList ++ t ++ "]".toList ++ x :: s <:+: inp) (hx : x ≠ ':') :
      Complaint env c inp ("The IPv6 address \"".toList ++ ("[".toList ++ t ++ "]".toList ++ x :: s) ++ "\" is followed by unknown data.".toList)
  /-- A mask has too many digits. -/
  | maskTooLarge {m ds : Str} (hm : MaskText c inp m) (hd : MaskDigits m ds) (hn : 10000 < Nat.ofDigitChars 10 ds 0) :
      Complaint env c inp ("Mask size too large (".toList ++ m ++ ", expected a maximum of 128).".toList)
  /-- A mask is a number over 32. -/
  | maskSize4 {m : Str} (hm : MaskText c inp m) (hd : MaskDigits m (cstr m)) (hn : 32 < Nat.ofDigitChars 10 (cstr m) 0) :
      Complaint env c inp ("Unsupported mask size (".toList ++ dec (Nat.ofDigitChars 10 (cstr m) 0)
        ++ ", expected 32 at the most for an IPv4).".toList)
  /-- A mask is a number over 128. -/
  | maskSize6 {m : Str} (hm : MaskText c inp m) (hd : MaskDigits m (cstr m)) (hn : 128 < Nat.ofDigitChars 10 (cstr m) 0) :
      Complaint env c inp ("Unsupported mask size (".toList ++ dec (Nat.ofDigitChars 10 (cstr m) 0)
        ++ ", expected 128 at the most for an IPv6).".toList)
  /-- A mask is not a number, and only numbers are allowed. -/
  | maskNotNumber {m : Str} (hf : c.flags .addressMask = false) (hm : MaskText c inp m) (hd : ¬ MaskDigits m (cstr m)) :
      Complaint env c inp ("Address like mask not allowed (/".toList ++ m ++ "), try with a simple number instead.".toList)
  /-- A mask is in brackets. -/
  | maskSix {m : Str} (hf : c.flags .addressMask = true) (hm : MaskText c inp m) (hb : m.head? = some '[') :
      Complaint env c inp "The address uses the IPv4 syntax, the mask cannot use IPv6.".toList
  /-- A mask is not in brackets. -/
  | maskFour {m : Str} (hf : c.flags .addressMask = true) (hm : MaskText c inp m) (hb : m.head? ≠ some '[') :
      Complaint env c inp "The address uses the IPv6 syntax, the mask cannot use IPv4.".toList
  /-- The bracket of a mask is not closed at its end. -/
  | maskBracket {m : Str} (hf : c.flags .addressMask = true) (hm : MaskText c inp m) (hb : m.head? = some '[') (he : m.getLast? ≠ some ']') :
      Complaint env c inp ("The IPv6 mask is missing the ']' (".toList ++ m ++ ").".toList)
  /-- The name service refused a mask. -/
  | maskInvalid {m : Str} {six : Bool} {r e : Int} (ha : MaskAnswer env c inp m six (.error r e)) :
      Complaint env c inp ("Invalid mask in \"/".toList ++ m ++ "\", error ".toList ++ signed r ++ " -- ".toList ++ env.gaiStrerror r
        ++ " (errno: ".toList ++ signed e ++ " -- ".toList ++ env.strerror e ++ ").".toList)
  /-- A mask in brackets is not an IPv6 address. -/
  | maskNotSix {m : Str} {x : AddrInfo} {l : List AddrInfo} (ha : MaskAnswer env c inp m true (.list (x :: l)))
      (hx : ∀ len protocol sa, x ≠ .inet6 len protocol sa) :
      Complaint env c inp "Incompatible address between the address and mask address (first was an IPv6 second an IPv4).".toList
  /-- A mask which is not in brackets is not an IPv4 address. -/
  | maskNotFour {m : Str} {x : AddrInfo} {l : List AddrInfo} (ha : MaskAnswer env c inp m false (.list (x :: l)))
      (hx : ∀ len protocol sa, x ≠ .inet len protocol sa) :
      Complaint env c inp "Incompatible address between the address and mask address (first was an IPv4 second an IPv6).".toList
  /-- A mask is an IPv4 address of a wrong size. -/
  | maskAnswer4 {m : Str} {l : List AddrInfo} {len : Nat} {protocol : Int} {sa : SockaddrIn}
      (ha : MaskAnswer env c inp m false (.list (.inet len protocol sa :: l))) (hlen : len ≠ 16) :
      Complaint env c inp ("Unsupported address size (".toList ++ dec len ++ ", expected16).".toList)
  /-- A mask is an IPv6 address of a wrong size. -/
  | maskAnswer6 {m : Str} {l : List AddrInfo} {len : Nat} {protocol : Int} {sa : SockaddrIn6}
      (ha : MaskAnswer env c inp m true (.list (.inet6 len protocol sa :: l))) (hlen : len ≠ 28) :
      Complaint env c inp ("Unsupported address size (".toList ++ dec len ++ ", expected 28).".toList)

end Verif.Spec
