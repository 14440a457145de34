import Verif.Model.Parser

/-!
# Specification: where the addresses returned by the parser come from
-/

namespace Verif.Spec

/-- The text used as the address: a piece of the input, or one of the default addresses when none is required. -/
def AddressText (c : Config) (inp t : Str) : Prop :=
  (t ≠ [] ∧ t <:+: inp)
    ∨ (c.flags .requiredAddress = false
        ∧ (t = (if c.defaultAddress4 = [] then "0.0.0.0".toList else c.defaultAddress4)
          ∨ t = (if c.defaultAddress6 = [] then "::".toList else c.defaultAddress6)))

/-- The text used as the port: a piece of the input which follows a colon, or the default port (if any) when none is required. -/
def PortText (c : Config) (inp q : Str) (written : Bool) : Prop :=
  (written = true ∧ q ≠ [] ∧ ':' :: q <:+: inp)
    ∨ (written = false ∧ c.flags .requiredPort = false ∧ q = if c.defaultPort = -1 then [] else intStr c.defaultPort)

/-- `::ffff:a.b.c.d`. -/
def mapped (b : Bytes4) : Bytes16 := #v[0, 0, 0, 0, 0, 0, 0, 0, 0, 0, 0xFF, 0xFF, b[0], b[1], b[2], b[3]]

/-- The socket address held by one answer of `getaddrinfo()`. -/
def Holds : AddrInfo → SockaddrIn6 → Prop
  | .inet _ _ sa, s => s = { family := AF_INET6, port := sa.port, flowinfo := 0, scope := 0, addr := mapped sa.addr }
  | .inet6 _ _ sa, s => s = sa
  | .other _, _ => False

/-- The address written by a text. -/
def Writes (t : Str) (b : Bytes16) : Prop :=
  (∃ b4, Inet.pton4 (cstr t) = some b4 ∧ b = mapped b4) ∨ (Inet.pton4 (cstr t) = none ∧ Inet.pton6 (cstr t) = some b)

/-- The number written by a text, 0 when there is no text. -/
def PortNumber (env : ParseEnv) (q : Str) (n : Nat) : Prop := (q = [] ∧ n = 0) ∨ (q ≠ [] ∧ env.convert q = some (n : Int))

/-- An address is one of the answers of the name service to the texts when it is consulted, otherwise what the texts
write. -/
def Denotes (env : ParseEnv) (c : Config) (t q : Str) (a : Addr) : Prop :=
  if c.flags .addressLookup = true then
    ∃ l, env.getaddrinfo (cstr t) (if q = [] then ['0'] else cstr q) false (Parser.hintProtocol c.protocol) = .list l
      ∧ ∃ x ∈ l, Holds x a.getIpv6
  else Writes t a.getIpv6.addr ∧ PortNumber env q a.getPort

/-- The ports which get through when they are not allowed: none at all without lookup; otherwise, the default port, and the
one written after a name without a dot, in place of the IPv6 address which is the default, or in a text with a bracket. -/
def PortPasses (c : Config) (inp t q : Str) (written : Bool) : Prop :=
  c.flags .port = false → c.flags .requiredPort = false →
    (c.flags .addressLookup = false → q = [])
      ∧ (written = true → '.' ∉ t ∨ ']' ∈ inp ∨ t = (if c.defaultAddress6 = [] then "::".toList else c.defaultAddress6))

/-- An address is denoted by pieces of the input, or by the defaults where the input may leave them out. It is new: nothing was
noted about the kind of its network. -/
def Source (env : ParseEnv) (c : Config) (inp : Str) (a : Addr) : Prop :=
  ∃ q, AddressText c inp a.hostname ∧ PortText c inp q a.portDefined ∧ Denotes env c a.hostname q a
    ∧ PortPasses c inp a.hostname q a.portDefined ∧ a.privateNetwork = .undefined

/-- What is expected of the list of `getaddrinfo()`. -/
def GoodAnswer : AddrInfo → Prop
  | .inet len _ _ => len = sizeofIn
  | .inet6 len _ _ => len = sizeofIn6
  | .other _ => False

/-- What is expected of `getaddrinfo()`: at least one answer, all of them of one of the two families and with the right size. -/
def GoodAnswers (env : ParseEnv) : Prop :=
  ∀ node service numeric protocol l, env.getaddrinfo node service numeric protocol = .list l → l ≠ [] ∧ ∀ x ∈ l, GoodAnswer x

end Verif.Spec
