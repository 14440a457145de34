import Verif.SpecParse
import Verif.SpecParseSafe
import Verif.SpecText

/-!
# Specification: one address out of a text

What `string_to_addr()` is expected to return, and what the name service is expected to answer.
-/

namespace Verif.Spec

/-- The answers of `getaddrinfo()` which are addresses: one of the two families with the right size. -/
def usable : AddrInfo → Bool
  | .inet len _ _ => len == sizeofIn
  | .inet6 len _ _ => len == sizeofIn6
  | .other _ => false

/-- The protocol of the address made of an answer; an answer with the protocol -1 gives a TCP address. -/
def answerProtocol : AddrInfo → Int
  | .inet _ protocol _ => if protocol = -1 then 6 else protocol
  | .inet6 _ protocol _ => if protocol = -1 then 6 else protocol
  | .other _ => 6

/-- The elements of two lists correspond, one by one. -/
inductive Each {α β : Type} (R : α → β → Prop) : List α → List β → Prop
  | nil : Each R [] []
  | cons {a : α} {b : β} {l : List α} {l' : List β} : R a b → Each R l l' → Each R (a :: l) (b :: l')

/-- The range is the address of an answer to a question about the name `t`. -/
structure Stands (t : Str) (x : AddrInfo) (r : Range) : Prop where
  hasFrom : r.hasFrom = true
  hasTo : r.hasTo = false
  holds : Holds x r.lo.getIpv6
  protocol : r.lo.protocol = answerProtocol x
  hostname : r.lo.hostname = t

/-- The address which is taken out of the list of the parser: the only one, or else the only TCP address if no protocol was
asked for. -/
def Picks (protocol : Str) (l : List Range) (a : Addr) : Prop :=
  (∃ r, l = [r] ∧ a = r.lo)
    ∨ (protocol = [] ∧ l.length ≠ 1 ∧ ∃ before r after, l = before ++ r :: after ∧ a = r.lo ∧ r.lo.protocol = 6
        ∧ ∀ s ∈ before ++ after, s.lo.protocol ≠ 6)

/-- The parameters which are not refused by the setters of the parser. -/
structure Acceptable (env : ParseEnv) (defaultAddress : Str) (defaultPort : Int) (protocol : Str) : Prop where
  address : defaultAddress.head? = some '[' → defaultAddress.getLast? = some ']'
  port : -1 ≤ defaultPort ∧ defaultPort ≤ 65535
  protocol : protocol ≠ [] → env.getprotobyname (cstr protocol) ≠ none

/-- An answer with another protocol. -/
def retag (n : Int) : AddrInfo → AddrInfo
  | .inet len _ sa => .inet len n sa
  | .inet6 len _ sa => .inet6 len n sa
  | .other family => .other family

/-- The structure is one of the two known, complete. -/
def CompleteAnswer : AddrInfo → Prop
  | .inet len _ sa => len = sizeofIn ∧ sa.family = AF_INET
  | .inet6 len _ sa => len = sizeofIn6 ∧ sa.family = AF_INET6
  | .other _ => False

/-- What the addresses found become in the list of `getaddrinfo()` of the GNU C library when a service is given as a number:
one entry per address when a protocol is asked for, otherwise three of them (TCP, UDP and raw IP). -/
def spread (hint : Int) (found : List AddrInfo) : List AddrInfo :=
  if hint = 0 then found.flatMap fun x => [retag 6 x, retag 17 x, retag 0 x] else found.map (retag hint)

/-- The list has that form. -/
def GlibcAnswers (env : ParseEnv) : Prop :=
  ∀ node service hint l, env.getaddrinfo node service false hint = .list l →
    ∃ found, (∀ x ∈ found, CompleteAnswer x) ∧ l = spread hint found

/-- `getaddrinfo()` reads numeric addresses and decimal ports. -/
def NumericService (env : ParseEnv) : Prop :=
  ∀ (node : Str) (n : Nat) (hint : Int), n ≤ 65535 →
    (∀ b, Inet.pton4 node = some b → env.getaddrinfo node (dec n) false hint
      = .list (spread hint [.inet sizeofIn 0 { family := AF_INET, port := swap16 (BitVec.ofNat 16 n), addr := b, zero := Vector.replicate 8 0 }]))
    ∧ (∀ b, Inet.pton4 node = none → Inet.pton6 node = some b → env.getaddrinfo node (dec n) false hint
      = .list (spread hint [.inet6 sizeofIn6 0
          { family := AF_INET6, port := swap16 (BitVec.ofNat 16 n), flowinfo := 0, scope := 0, addr := b }]))

end Verif.Spec
