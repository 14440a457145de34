import Verif.Model.AddrOps
import Verif.Model.Range

/-!
# The calls which change an `addr_range` (addr_range.h:51-84)

`get_from()` and `get_to()` give references to the two addresses, which any function of `addr` may then change
(addr_range.h:60-64, addr_range.cpp:246-249,295-298).
-/

namespace Verif

/-- A call with its arguments. -/
inductive RangeOp
  | setFrom (a : Addr)
  | setTo (a : Addr)
  | swapFromTo
  | fromCidr (a : Addr)
  | onFrom (op : AddrOp)
  | onTo (op : AddrOp)

namespace RangeOp

/-- The range after the call. -/
def run : RangeOp → Range → Range
  | setFrom a, r => r.setFrom a
  | setTo a, r => r.setTo a
  | swapFromTo, r => r.swapFromTo
  | fromCidr a, r =>
    match Range.fromCidr a with
    | .ok r' => r'
    | _ => r
  | onFrom op, r => { r with lo := (op.run r.lo).1 }
  | onTo op, r => { r with hi := (op.run r.hi).1 }

/-- A history: the calls are made one after the other, an exception being caught by the caller. -/
def runAll : List RangeOp → Range → Range
  | [], r => r
  | op :: ops, r => runAll ops (op.run r)

end RangeOp

end Verif
