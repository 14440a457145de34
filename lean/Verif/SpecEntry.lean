import Verif.SpecAddress
import Verif.Model.Parser

/-!
# Specification: the entries of the parser
-/

namespace Verif.Spec

/-- An entry of which the address is `u` and the port `q` (empty when there is none): `u`, `u:q`, `[u]` or `[u]:q`. A colon after the
address is there only where ports are allowed, and an address with colons must be in brackets to be followed by one. -/
inductive Entry (ports : Prop) : (t u q : Str) → Prop
  | bare4 {u : Str} (h : ':' ∉ u) : Entry ports u u []
  | port4 {u q : Str} (h : ':' ∉ u) (hq : ':' ∉ q) (hp : ports) : Entry ports (u ++ ':' :: q) u q
  | bare6 {u : Str} (h : 2 ≤ u.count ':') : Entry ports u u []
  | bracket {u : Str} : Entry ports ('[' :: u ++ [']']) u []
  | port6 {u q : Str} (hp : ports) : Entry ports ('[' :: u ++ ']' :: ':' :: q) u q

/-- The entry leaves its address out: there is nothing before the port. -/
def LeftOut (t : Str) : Prop := t = [] ∨ (t.head? = some ':' ∧ t.count ':' < 2) ∨ "[]".toList <+: t

/-- The port of an entry of which the text of the port is `q`: the number written, or else the default port, or else zero. It is an
error for a port to be written, or to be there by default, where ports are not allowed. -/
def PortOf (env : ParseEnv) (c : Config) (q : Str) (n : Nat) : Prop :=
  n ≤ 65535 ∧
    if q ≠ [] then (c.flags .port = true ∨ c.flags .requiredPort = true) ∧ env.convert q = some (n : Int)
    else c.flags .requiredPort = false
      ∧ if c.defaultPort = -1 then n = 0 else c.flags .port = true ∧ env.convert (intStr c.defaultPort) = some (n : Int)

end Verif.Spec
