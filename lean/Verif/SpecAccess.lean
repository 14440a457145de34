import Verif.SpecNetwork
import Verif.SpecEntry
import Verif.SpecRangeText

/-!
# Specification: the entries of a list of networks and ranges
-/

namespace Verif.Spec

/-- An entry without a port, and the numbers it stands for: a network, or a range (in brackets or not). -/
inductive Listed : (t : Str) → (members : Nat → Prop) → Prop
  | network {t : Str} {n k : Nat} (h : Network t n k) : Listed t (InNetwork · n k)
  | range {t u : Str} {lo hi : Option Nat} (he : Entry False t u []) (h : WrittenRange u lo hi) : Listed t (InBounds · lo hi)

end Verif.Spec
