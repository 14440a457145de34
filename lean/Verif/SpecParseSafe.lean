import Verif.Model.Parser

/-!
# What `parse()` needs in order to answer

The conditions under which the reading of a text is expected to end with a list and nothing else.
-/

namespace Verif.Spec

/-- The protocols which an address can have, and -1 for none. -/
def KnownProtocol (n : Int) : Prop := n = -1 ∨ n = 0 ∨ n = 6 ∨ n = 17

/-- What `getaddrinfo()` puts in its list: the family of the structure is the one announced, and the protocol is IP, TCP or
UDP. Structures of other sizes and families are not restricted. -/
def SafeAnswer : AddrInfo → Prop
  | .inet len protocol sa => len = sizeofIn → sa.family = AF_INET ∧ KnownProtocol protocol
  | .inet6 len protocol sa => len = sizeofIn6 → sa.family = AF_INET6 ∧ KnownProtocol protocol
  | .other _ => True

/-- Every answer to a question with names allowed, for any protocol or for TCP or UDP, is such. -/
def SafeAnswers (env : ParseEnv) : Prop :=
  ∀ node service protocol l, protocol = 0 ∨ protocol = 6 ∨ protocol = 17 → env.getaddrinfo node service false protocol = .list l → ∀ x ∈ l, SafeAnswer x

/-- The answer to a question about a numeric address is an error or has at least one element. -/
def SomeAnswer (env : ParseEnv) : Prop := ∀ node service protocol, env.getaddrinfo node service true protocol ≠ .list []

/-- What is needed for a given configuration. -/
structure Answerable (env : ParseEnv) (c : Config) : Prop where
  lookup : c.flags .addressLookup = true → SafeAnswers env
  protocol : c.flags .addressLookup = false → KnownProtocol c.protocol
  mask : c.flags .mask = true → c.flags .addressMask = true → SomeAnswer env

end Verif.Spec
