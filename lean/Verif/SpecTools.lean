import Verif.Model.Tools
import Verif.SpecText
import Verif.SpecList
import Verif.SpecRoute

/-!
# Specification: the tools `validate-ip`, `ifaces` and `ipv4-routes`

The parser which the options of `validate-ip` describe, when they can be used, and what the tools write.
-/

namespace Verif.Spec

open Tools

/-- A default address replaces the one of its family; an empty one removes both. -/
def withDefault (d : Str × Str) (a : Str) : Str × Str :=
  if a = [] then ([], [])
  else if a.head? = some '[' then (d.1, (a.drop 1).dropLast)
  else if ':' ∈ a then (d.1, a)
  else (a, d.2)

/-- The value of `--default-address`: one address, or two of them separated by a comma. -/
def DefaultParts (value : Str) (l : List Str) : Prop :=
  (',' ∉ value ∧ l = [value]) ∨ ∃ first second, ',' ∉ first ∧ value = first ++ ',' :: second ∧ l = [first, second]

/-- The features which are allowed. -/
def toolAllows (o : ValidateOptions) : Allow → Bool
  | .address => true
  | .addressLookup => true
  | .port => true
  | .requiredAddress => o.address
  | .requiredPort => o.port
  | .mask => o.mask
  | .multiAddressesCommas => o.list
  | .multiAddressesSpaces => o.list
  | _ => false

/-- The parser is the one described by the options. -/
structure IsToolParser (env : ParseEnv) (o : ValidateOptions) (p : Parser) : Prop where
  flags : ∀ f, p.config.flags f = toolAllows o f
  sort : p.config.sort = 0
  addresses : ∃ l, DefaultParts o.defaultAddress l
    ∧ (p.config.defaultAddress4, p.config.defaultAddress6) = l.foldl withDefault ("127.0.0.1".toList, "::".toList)
  mask4 : p.config.defaultMask4 = "255.255.255.255".toList
  mask6 : p.config.defaultMask6 = "FF:FF:FF:FF:FF:FF:FF:FF".toList
  protocol : env.getprotobyname (cstr o.protocol) = some p.config.protocol
  port : p.config.defaultPort = Addr.toCInt o.defaultPort
  noError : p.error = []
  noErrors : p.errorCount = 0

/-- The options make sense. -/
structure UsableOptions (env : ParseEnv) (o : ValidateOptions) : Prop where
  addresses : ∀ l, DefaultParts o.defaultAddress l → ∀ a ∈ l, a.head? = some '[' → a.getLast? = some ']'
  port : -1 ≤ Addr.toCInt o.defaultPort ∧ Addr.toCInt o.defaultPort ≤ 65535
  protocol : env.getprotobyname (cstr o.protocol) ≠ none

/-- The parser of `advgetopt` does not take the default mask for a number. -/
def DottedIsNoNumber (env : ParseEnv) : Prop := env.convert "255.255.255.255".toList = none

/-- What is written about an argument with `n` errors, and the messages about them. -/
def errorReport (a : Str) (n : Int) (messages : Str) : Str :=
  "address \"".toList ++ a ++ "\" generated ".toList ++ intStr n ++ (if n = 1 then " error: ".toList else " errors: ".toList)
    ++ messages ++ "\n".toList

/-- The address can be printed with its mask: an IPv4 address needs the mask of an IPv4 address. -/
def Printable (a : Addr) : Prop := isV4 (ip a.getIpv6.addr) → ip a.getMask / 2 ^ 32 = 2 ^ 96 - 1

/-- The tool accepts the argument. -/
def Accepted (env : ParseEnv) (o : ValidateOptions) (p : Parser) (a : Str) : Prop :=
  (Parser.parse env a p).1.getErrorCount = 0
    ∧ (o.canonicalize = true → ∀ l, (Parser.parse env a p).2 = .ok l → ∀ r ∈ l, Printable r.lo)

/-- What is written to `stderr` about an argument. -/
def reportOf (env : ParseEnv) (o : ValidateOptions) (p : Parser) (a : Str) : Str :=
  let q := (Parser.parse env a p).1
  if q.getErrorCount = 0 ∨ o.quiet = true then [] else errorReport a q.getErrorCount q.errorMessages

/-- A line with the address, its port and its mask. -/
def lineOf (db : NetDb) (a : Addr) : Str :=
  match a.toIpv4or6String db STRING_IP_ALL with
  | .ok s => s ++ "\n".toList
  | _ => []

/-- What is written to `stdout` about an argument. -/
def linesOf (env : ParseEnv) (db : NetDb) (o : ValidateOptions) (p : Parser) (a : Str) : Str :=
  match Parser.parse env a p with
  | (q, .ok l) => if q.getErrorCount = 0 ∧ o.canonicalize = true then l.flatMap fun r => lineOf db r.lo else []
  | _ => []

/-- The lines of an output. -/
def outputLines (out : Str) : List Str := (fields (· == '\n') out).dropLast

/-- The words of a line, as seen by `awk` and by the loops of a shell. -/
def wordsOf (line : Str) : List Str := (fields (· == ' ') line).filter (· ≠ [])

/-- A text which is one word of one line. -/
def IsWord (s : Str) : Prop := s ≠ [] ∧ ' ' ∉ s ∧ '\n' ∉ s

/-- The words of a line of columns, each of a given width: a value which fills its column runs into the next one. -/
def runTogether : List (Nat × Str) → List Str
  | [] => []
  | x :: l =>
    if x.2.length < x.1 then x.2 :: runTogether l
    else match runTogether l with
      | [] => [x.2]
      | w :: ws => (x.2 ++ w) :: ws

/-! ### ifaces -/

/-- What the options which choose the interfaces stand for. -/
def Chosen : Filter → (v : Nat) → Prop
  | .all, _ => True
  | .pub, v => ¬ isPrivate v ∧ ¬ isCarrier v ∧ ¬ isLinkLocal v ∧ ¬ isMulticast v ∧ ¬ isLoopback v ∧ ¬ isAny v ∧ ¬ isDocumentation v
  | .priv, v => isPrivate v
  | .loopback, v => isLoopback v
  | .default, _ => False

/-- The text of an address: dotted decimal, or the canonical text of RFC 5952. -/
def AddressWord (v : Nat) (s : Str) : Prop := (isV4 v → s = dotted (v % 2 ^ 32)) ∧ (¬ isV4 v → Text6 v s)

/-- The text of the broadcast or destination address of an interface, of which the address is an IPv4 address or not: when
there is none, an asterisk if asked for, or `0.0.0.0` where the address is an IPv4 address. -/
def OptionalWord (asterisk v4address : Prop) (v : Nat) (s : Str) : Prop :=
  (asterisk ∧ isAny v → s = "*".toList) ∧ (¬ asterisk ∧ v = 0 ∧ v4address → s = "0.0.0.0".toList)
    ∧ (¬ (isAny v ∧ asterisk) → ¬ (v = 0 ∧ v4address) → AddressWord v s)

/-- The words of the line about an interface. -/
def IfaceRow (o : IfacesOptions) (i : Iface) (words : List Str) : Prop :=
  ∃ a b d, AddressWord (ip i.address.getIpv6.addr) a
    ∧ OptionalWord (o.asterisk = true) (isV4 (ip i.address.getIpv6.addr)) (ip i.broadcast.getIpv6.addr) b
    ∧ OptionalWord (o.asterisk = true) (isV4 (ip i.address.getIpv6.addr)) (ip i.destination.getIpv6.addr) d
    ∧ words = [i.name, dec i.flags.toNat, a, b, d]

/-- The words of the line about an interface, whatever its name and its flags. -/
def IfaceColumns (o : IfacesOptions) (i : Iface) (words : List Str) : Prop :=
  ∃ a b d, AddressWord (ip i.address.getIpv6.addr) a
    ∧ OptionalWord (o.asterisk = true) (isV4 (ip i.address.getIpv6.addr)) (ip i.broadcast.getIpv6.addr) b
    ∧ OptionalWord (o.asterisk = true) (isV4 (ip i.address.getIpv6.addr)) (ip i.destination.getIpv6.addr) d
    ∧ a.length < 41 ∧ b.length < 41 ∧ words = runTogether [(17, i.name), (6, dec i.flags.toNat), (41, a), (41, b), (41, d)]

/-- The words of the first line. -/
def ifacesTitles : List Str := ["Iface", "Flags", "Address", "Broadcast", "Destination"].map String.toList

/-- The option which chooses interfaces. -/
def filterOf (a : Str) : Option Filter :=
  if a = "-d".toList ∨ a = "--default".toList then some .default
  else if a = "--public".toList then some .pub
  else if a = "--private".toList then some .priv
  else if a = "--loopback".toList then some .loopback
  else none

/-- The options which do not end the tool. -/
def ifacesFlags : List Str :=
  ["--hide-headers", "-d", "--default", "--public", "--private", "--loopback", "--asterisk", "--name-only"].map String.toList

/-- The options which end the tool at once. -/
def ifacesEnds : List Str := ["-h", "--help", "-V", "--version"].map String.toList

/-! ### ipv4-routes -/

/-- The letters about a route: up, through a gateway, to one host. -/
def routeLetters (flags : BitVec 16) : Str :=
  (if flags.toNat % 2 = 1 then "U".toList else []) ++ (if flags.toNat / 2 % 2 = 1 then "G".toList else [])
    ++ (if flags.toNat / 4 % 2 = 1 then "H".toList else [])

/-- Four bytes in dotted decimal. -/
def dottedBytes (b : Bytes4) : Str :=
  dec b[0].toNat ++ '.' :: (dec b[1].toNat ++ '.' :: (dec b[2].toNat ++ '.' :: dec b[3].toNat))

/-- The words of the line about a route of the kernel. -/
def routeRow (k : KernelRoute) : List Str :=
  [k.iface, dottedBytes k.destination, dottedBytes k.gateway, routeLetters k.flags, signedStr k.refcnt, dec k.use,
   signedStr k.metric, dottedBytes k.mask, signedStr k.mtu, dec k.window, dec k.irtt]

/-- The words of the first line. -/
def routesTitles : List Str :=
  ["Iface", "Destination", "Gateway", "Flags", "RefCnt", "Use", "Metric", "Mask", "MTU", "Window", "IRTT"].map String.toList

/-- The values of the route leave a blank in each column of eight. -/
def FitsColumns (k : KernelRoute) : Prop :=
  k.iface.length < 8 ∧ (signedStr k.refcnt).length < 8 ∧ (dec k.use).length < 8 ∧ (signedStr k.metric).length < 8
    ∧ (signedStr k.mtu).length < 8 ∧ (dec k.window).length < 8 ∧ (dec k.irtt).length < 8

/-- The widths of the columns. -/
def routeWidths : List Nat := [8, 16, 16, 8, 8, 8, 8, 16, 8, 8, 8]

end Verif.Spec
