import Verif.SpecComplaint

/-!
# Specification: the questions which the parser may put to the name service
-/

namespace Verif.Spec

/-- The questions about hosts: the name is a piece of the text or a default address, the service a piece of the text which
follows a colon, the default port or 0, and the protocol is the one asked for. Only where lookups are allowed. -/
def AskedHost (c : Config) (inp node service : Str) (protocol : Int) : Prop :=
  c.flags .addressLookup = true
    ∧ (∃ t, AddressText c inp t ∧ node = cstr t)
    ∧ (∃ q written, PortText c inp q written ∧ service = if q = [] then "0".toList else cstr q)
    ∧ protocol = if c.protocol = IPPROTO_TCP ∨ c.protocol = IPPROTO_UDP then c.protocol else 0

/-- The questions about masks, which are numeric: the name is what follows a slash in the text, or a default mask, without
its brackets; the service is the number of a port. Only where masks written as addresses are allowed. -/
def AskedMask (c : Config) (inp node service : Str) (protocol : Int) : Prop :=
  c.flags .addressMask = true
    ∧ (∃ m t, MaskText c inp m ∧ (m = t ∨ m = "[".toList ++ t ++ "]".toList) ∧ node = cstr t)
    ∧ (∃ n, n < 2 ^ 16 ∧ service = dec n)
    ∧ (protocol = 0 ∨ protocol = IPPROTO_TCP ∨ protocol = IPPROTO_UDP)

/-- The questions which may be put about a text. -/
def MayAsk (c : Config) (inp node service : Str) (numeric : Bool) (protocol : Int) : Prop :=
  if numeric = true then AskedMask c inp node service protocol else AskedHost c inp node service protocol

/-- Two systems which give the same answers to some questions; the two convert numbers and describe errors alike. -/
structure AlikeOn (env1 env2 : ParseEnv) (Q : (node service : Str) → (numeric : Bool) → (protocol : Int) → Prop) : Prop where
  convert : env1.convert = env2.convert
  gaiStrerror : env1.gaiStrerror = env2.gaiStrerror
  strerror : env1.strerror = env2.strerror
  answers : ∀ node service numeric protocol, Q node service numeric protocol →
    env1.getaddrinfo node service numeric protocol = env2.getaddrinfo node service numeric protocol

/-- The second system knows all the names which the first one knows, of those in some questions, and has the same answers for
them; the two convert numbers alike. -/
structure KnownBy (env1 env2 : ParseEnv) (Q : (node service : Str) → (numeric : Bool) → (protocol : Int) → Prop) : Prop where
  convert : env1.convert = env2.convert
  answers : ∀ node service numeric protocol, Q node service numeric protocol → ∀ l,
    env1.getaddrinfo node service numeric protocol = .list l → env2.getaddrinfo node service numeric protocol = .list l

end Verif.Spec
