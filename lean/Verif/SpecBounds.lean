import Verif.Props.LookupLanguage

/-!
# Specification: ranges whose bounds are names
-/

namespace Verif.Spec

/-- The number of the address of an answer of `getaddrinfo()`. -/
def answerNumber : AddrInfo → Nat
  | .inet _ _ sa => 0xFFFF00000000 + ip4 sa.addr
  | .inet6 _ _ sa => ip sa.addr
  | .other _ => 0

/-- The host `u` with the port `q` is one address: the usable answers are `x` and answers with the same address (for other protocols,
say). The answers which are not usable make `n` errors. -/
def OneHost (env : ParseEnv) (p : Parser) (u q : Str) (x : AddrInfo) (n : Nat) : Prop :=
  (p.config.flags .requiredPort = false ∨ q ≠ []) ∧ ∃ l rest, answerTo env p u q = .list l ∧ (∀ y ∈ l, SafeAnswer y)
    ∧ l.filter usable = x :: rest ∧ (∀ y ∈ rest, answerNumber y = answerNumber x) ∧ n = badAnswers l

/-- The host `u` with the port `q` is not one address, and this makes `n` errors: the mandatory port is missing, the question has no
answer, no answer is usable (an empty list makes no error at all), or there are two different addresses. -/
def NotOneHost (env : ParseEnv) (p : Parser) (u q : Str) (n : Nat) : Prop :=
  (p.config.flags .requiredPort = true ∧ q = [] ∧ n = 1)
    ∨ (p.config.flags .requiredPort = false ∨ q ≠ []) ∧ ((∃ r e, answerTo env p u q = .error r e ∧ n = 1)
      ∨ ∃ l, answerTo env p u q = .list l ∧ (∀ y ∈ l, SafeAnswer y)
        ∧ (l.filter usable = [] ∧ n = badAnswers l
          ∨ (∃ x ∈ l.filter usable, ∃ y ∈ l.filter usable, answerNumber x ≠ answerNumber y) ∧ n = badAnswers l + 1))

/-- The entry `t` is the addresses `s` with the port `q` (empty when there is none). -/
inductive Written (p : Parser) : (t s q : Str) → Prop
  | plain {s : Str} (hne : s ≠ []) (h : ':' ∉ s) (hb : s.head? ≠ some '[') : Written p s s []
  | port {s q : Str} (hne : s ≠ []) (h : ':' ∉ s) (hb : s.head? ≠ some '[') (hq : ':' ∉ q)
      (hp : PortsAllowed p ∨ '.' ∉ s ∨ ']' ∈ s ∨ ']' ∈ q) : Written p (s ++ ':' :: q) s q
  | six {s : Str} (h : 2 ≤ s.count ':') (hb : s.head? ≠ some '[') : Written p s s []
  | bracket {s : Str} (h : ']' ∉ s) : Written p ('[' :: s ++ [']']) s []
  | bracketPort {s q : Str} (h : ']' ∉ s) (hp : PortsAllowed p) : Written p ('[' :: s ++ ']' :: ':' :: q) s q

/-- The address is the one of the answer about the host `u` and the port `q`. -/
structure AddressOfAnswer (u q : Str) (x : AddrInfo) (a : Addr) : Prop where
  holds : Holds x a.getIpv6
  protocol : a.protocol = answerProtocol x
  hostname : a.hostname = u
  mask : ip a.getMask = 2 ^ 128 - 1
  portDefined : a.portDefined = true ↔ q ≠ []

end Verif.Spec
