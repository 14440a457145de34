import Verif.SpecRoute
import Verif.Spec

/-!
# Specification: which route the kernel takes

Among the routes of the main table which have the address, the one with the most bits; among those the one with the smallest metric.
-/

namespace Verif.Spec

/-- The route has the address. -/
def RouteFor (k : KernelRoute) (b : Bytes4) : Prop :=
  b[0] &&& k.mask[0] = k.destination[0] ∧ b[1] &&& k.mask[1] = k.destination[1] ∧ b[2] &&& k.mask[2] = k.destination[2]
    ∧ b[3] &&& k.mask[3] = k.destination[3]

/-- The kernel takes the route for the address. -/
def RouteTaken (rs : List KernelRoute) (b : Bytes4) (k : KernelRoute) : Prop :=
  k ∈ rs ∧ RouteFor k b
    ∧ ∀ k' ∈ rs, RouteFor k' b → ip4 k'.mask < ip4 k.mask ∨ (ip4 k'.mask = ip4 k.mask ∧ k.metric ≤ k'.metric)

end Verif.Spec
