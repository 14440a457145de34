import Verif.Model.Parser
import Verif.Spec
import Verif.SpecText

/-!
# What the documentation of the address validator says

validator_address.cpp:20-87. An option is a text `name` or `name=values`; the values are separated by spaces, `split`
separates them.
-/

namespace Verif.Spec

def optionName (p : Str) : Str := p.takeWhile (· ≠ '=')

/-- No value at all is the same as "yes". -/
def optionValues (split : Str → List Str) (p : Str) : List Str :=
  match p.dropWhile (· ≠ '=') with
  | [] => ["yes".toList]
  | _ :: rest => if (split rest).isEmpty then ["yes".toList] else split rest

/-- The option which says whether something is allowed. -/
def governedBy : Allow → Option Str
  | .address | .requiredAddress | .addressLookup | .addressRange => some "address".toList
  | .multiAddressesCommas | .multiAddressesSpaces | .multiAddressesNewlines => some "address".toList
  | .commentHash | .commentSemicolon => some "comment".toList
  | .mask | .addressMask => some "mask".toList
  | .port | .requiredPort => some "port".toList
  | .multiPortsSemicolons | .multiPortsCommas | .portRange => none

/-- Whether the values of that option allow it. -/
def allowedBy (values : List Str) : Allow → Prop
  | .address => "no".toList ∉ values
  | .requiredAddress => "no".toList ∉ values ∧ "required".toList ∈ values
  | .addressLookup => "no".toList ∉ values ∧ "lookup".toList ∈ values
  | .addressRange => "no".toList ∉ values ∧ "range".toList ∈ values
  | .multiAddressesCommas => "no".toList ∉ values ∧ "commas".toList ∈ values
  | .multiAddressesSpaces => "no".toList ∉ values ∧ "spaces".toList ∈ values
  | .multiAddressesNewlines => "no".toList ∉ values ∧ "newlines".toList ∈ values
  | .commentHash => values = ["yes".toList] ∨ values = ["all".toList] ∨ values = ["hash".toList]
  | .commentSemicolon => values = ["yes".toList] ∨ values = ["all".toList] ∨ values = ["semicolon".toList]
  | .mask => values.length = 1 ∧ "no".toList ∉ values
  | .addressMask => values = ["address".toList]
  | .port => values.length = 1 ∧ "no".toList ∉ values
  | .requiredPort => values = ["required".toList]
  | .multiPortsSemicolons | .multiPortsCommas | .portRange => False

/-- The values of the last option with a given name, if there is one. -/
def lastValues (split : Str → List Str) (name : Str) : List Str → Option (List Str)
  | [] => none
  | p :: l =>
    match lastValues split name l with
    | some values => some values
    | none => if optionName p = name then some (optionValues split p) else none

/-- What a new parser allows. -/
def allowedAtFirst (f : Allow) : Prop := f = .address ∨ f = .addressLookup ∨ f = .port

/-- What a validator allows: the last option about it decides. -/
def allowedByOptions (split : Str → List Str) (data : List Str) (f : Allow) : Prop :=
  match governedBy f with
  | none => False
  | some name =>
    match lastValues split name data with
    | none => allowedAtFirst f
    | some values => allowedBy values f

/-- The values which the documentation lists for the options other than the defaults. -/
def Documented (name : Str) (values : List Str) : Prop :=
  (name = "address".toList
      ∧ (values = ["no".toList]
        ∨ ((∀ v ∈ values, v ∈ ["yes".toList, "required".toList, "commas".toList, "spaces".toList, "newlines".toList,
              "range".toList, "lookup".toList])
          ∧ ¬ ("yes".toList ∈ values ∧ "required".toList ∈ values))))
    ∨ (name = "comment".toList
      ∧ ∃ v ∈ ["yes".toList, "all".toList, "hash".toList, "semicolon".toList, "no".toList], values = [v])
    ∨ (name = "mask".toList ∧ ∃ v ∈ ["yes".toList, "no".toList, "address".toList], values = [v])
    ∨ (name = "port".toList ∧ ∃ v ∈ ["yes".toList, "no".toList, "required".toList], values = [v])

/-- A parser of TCP addresses with masks. -/
def textParser : Parser := (Parser.setProtocol 6 (Parser.setAllow 9 true Parser.create).1).1

/-- The text is one address for such a parser. -/
def OneAddress (env : ParseEnv) (t : Str) : Prop :=
  ∃ r, (Parser.parse env t textParser).2 = .ok [r] ∧ r.hasFrom = true ∧ r.hasTo = false

/-- The option is as documented. -/
def GoodOption (env : ParseEnv) (split : Str → List Str) (p : Str) : Prop :=
  Documented (optionName p) (optionValues split p)
    ∨ ((optionName p = "default".toList ∨ optionName p = "defaults".toList)
      ∧ (optionValues split p = ["yes".toList] ∨ ∀ v ∈ optionValues split p, OneAddress env v))

/-- The decimal conversion of `validator_integer` reads the numbers of ports and masks. -/
def ReadsNumbers (env : ParseEnv) : Prop := ∀ n : Nat, n ≤ 65535 → env.convert (dec n) = some (n : Int)

/-- The text is this address for such a parser. -/
def ReadsAs (env : ParseEnv) (t : Str) (a : Addr) : Prop :=
  ∃ r, (Parser.parse env t textParser).2 = .ok [r] ∧ r.hasFrom = true ∧ r.hasTo = false ∧ r.lo = a

/-- The default address and the default port after `default=` with this address: those of the address, if it has them. -/
structure DefaultsOf (a : Addr) (c d : Config) : Prop where
  any : isAny (ip a.getIpv6.addr) → d.defaultAddress4 = c.defaultAddress4 ∧ d.defaultAddress6 = c.defaultAddress6
  v4 : ¬ isAny (ip a.getIpv6.addr) → isV4 (ip a.getIpv6.addr) →
    d.defaultAddress4 = dotted (ip a.getIpv6.addr % 2 ^ 32) ∧ d.defaultAddress6 = c.defaultAddress6
  v6 : ¬ isAny (ip a.getIpv6.addr) → ¬ isV4 (ip a.getIpv6.addr) →
    d.defaultAddress4 = c.defaultAddress4 ∧ Text6 (ip a.getIpv6.addr) d.defaultAddress6
  noPort : a.getPort = 0 → d.defaultPort = c.defaultPort
  port : a.getPort ≠ 0 → d.defaultPort = a.getPort
  flags : d.flags = c.flags
  sort : d.sort = c.sort
  protocol : d.protocol = c.protocol

/-- The default mask after `default=` with this address: its mask, if it has one. -/
structure MaskDefault (a : Addr) (c d : Config) : Prop where
  none : (∀ n < 128, ip a.getMask ≠ prefixMask n) → d.defaultMask4 = c.defaultMask4 ∧ d.defaultMask6 = c.defaultMask6
  v4 : isV4 (ip a.getIpv6.addr) → ∀ n < 32, ip a.getMask = prefixMask (96 + n) →
    d.defaultMask4 = dec n ∧ d.defaultMask6 = c.defaultMask6
  v6 : ¬ isV4 (ip a.getIpv6.addr) → ∀ n < 128, ip a.getMask = prefixMask n →
    d.defaultMask4 = c.defaultMask4 ∧ d.defaultMask6 = dec n

/-- The steps made one after the other. -/
def Steps {α β : Type} (step : α → β → β → Prop) : List α → β → β → Prop
  | [], c, d => d = c
  | a :: l, c, d => ∃ e, step a c e ∧ Steps step l e d

end Verif.Spec
