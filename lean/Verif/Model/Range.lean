import Verif.Model.Addr

/-!
# Model of `libaddr/addr_range.h` and `libaddr/addr_range.cpp`

`addr_range::to_string()` is in `Model/AddrText.lean`.
-/

namespace Verif

/-- The data members of class `addr_range`, addr_range.h:86-89: `lo` is `f_from`, `hi` is `f_to`. -/
structure Range where
  hasFrom : Bool
  hasTo : Bool
  lo : Addr
  hi : Addr
  deriving DecidableEq

/-- `compare_t`, addr.h:76-93. -/
inductive Compare
  | equal | smaller | larger | overlapSmallVsLarge | overlapLargeVsSmall | included | includes | precedes | follows
  | first | last | ipv4VsIpv6 | ipv6VsIpv4 | unordered
  deriving DecidableEq, Repr

namespace Range

/-- `addr_range()`, the member initializers of addr_range.h:86-89. -/
def default : Range := { hasFrom := false, hasTo := false, lo := Addr.default, hi := Addr.default }

/-- `addr_range::is_defined()`, addr_range.cpp:103-106. -/
def isDefined (r : Range) : Bool := r.hasFrom || r.hasTo

/-- `addr_range::is_range()`, addr_range.cpp:120-123. -/
def isRange (r : Range) : Bool := r.hasFrom && r.hasTo

/-- `addr_range::is_empty()`, addr_range.cpp:142-149. -/
def isEmpty (r : Range) : Bool :=
  if !r.isRange then false else Addr.gt r.lo r.hi

/-- `addr_range::is_in()`, addr_range.cpp:170-185. -/
def isIn (r : Range) (rhs : Addr) : Res Bool :=
  if !r.isRange then .throw .invalidState
  else if Addr.le r.lo r.hi then .ok (Addr.ge rhs r.lo && Addr.le rhs r.hi)
  else .ok false

/-- `addr_range::is_ipv4()`, addr_range.cpp:198-216. -/
def isIpv4 (r : Range) : Bool :=
  if r.hasFrom && r.hasTo then r.lo.isIpv4 && r.hi.isIpv4
  else if r.hasFrom then r.lo.isIpv4
  else if r.hasTo then r.hi.isIpv4
  else false

/-- `addr_range::set_from()`, addr_range.cpp:227-231. -/
def setFrom (a : Addr) (r : Range) : Range := { r with hasFrom := true, lo := a }

/-- `addr_range::set_to()`, addr_range.cpp:276-280. -/
def setTo (a : Addr) (r : Range) : Range := { r with hasTo := true, hi := a }

/-- `addr_range::swap_from_to()`, addr_range.cpp:325-329. -/
def swapFromTo (r : Range) : Range := { hasFrom := r.hasTo, hasTo := r.hasFrom, lo := r.hi, hi := r.lo }

/-- `addr_range::from_cidr()`, addr_range.cpp:351-366. The range is replaced as a whole, so the previous one is not a
parameter; nothing changes when it throws. -/
def fromCidr (a : Addr) : Res Range :=
  if a.getMaskSize = -1 then .throw .unsupportedAsRange
  else .ok { hasFrom := true, hasTo := true, lo := a.applyMask false, hi := a.applyMask true }

/-- The inner loop of `addr_range::to_cidr()`, addr_range.cpp:400-409: `n` bits remain, `bit` is the next one. -/
def cidrTail (lo hi : BitVec 128) : (n : Nat) → (bit : BitVec 128) → Bool
  | 0, _ => true
  | n + 1, bit => if lo &&& bit ≠ hi &&& bit then false else cidrTail lo hi n (bit <<< 1)

/-- The outer loop of `addr_range::to_cidr()`, addr_range.cpp:393-413: `none` is `return false`, otherwise the value of
`cidr`. -/
def cidrLoop (lo hi : BitVec 128) : (n : Nat) → (bit : BitVec 128) → (cidr : Int) → Option Int
  | 0, _, cidr => some cidr
  | n + 1, bit, cidr =>
    if lo &&& bit ≠ 0 ∨ hi &&& bit = 0 then
      if cidrTail lo hi (n + 1) bit then some cidr else none
    else cidrLoop lo hi n (bit <<< 1) (cidr - 1)

/-- `addr_range::to_cidr()`, addr_range.cpp:381-420. The state is the output parameter. -/
def toCidr (r : Range) : SM Addr Bool := fun a =>
  if !r.isRange || r.isEmpty then (a, .ok false)
  else
    match cidrLoop r.lo.ipToUint128 r.hi.ipToUint128 128 1 128 with
    | none => (a, .ok false)
    | some cidr => SM.bind (Addr.setMaskCount cidr) (fun _ => SM.pure true) (a.ipFromUint128 r.lo.ipToUint128)

/-- `std::numeric_limits<std::size_t>::max()`. -/
def sizeMax : Nat := 2 ^ 64 - 1

/-- `addr_range::size()`, addr_range.cpp:641-660. The `+ 1` is a signed 128 bit addition. -/
def size (r : Range) : Res Nat :=
  if r.hasFrom && r.hasTo then
    let d := Addr.diff r.hi r.lo
    if d = 2 ^ 127 - 1 then .ub .signedOverflow
    else .ok (min (BitVec.ofInt 128 (d + 1)).toNat sizeMax)
  else if !r.hasFrom && !r.hasTo then .ok 0
  else .ok 1

/-- The `do ... while` loop of `addr_range::to_addresses()`, addr_range.cpp:456-462: the addresses pushed from `a` on.
`none` when the fuel does not suffice. -/
def addressesLoop (to : Addr) : (fuel : Nat) → (a : Addr) → Option (List Addr)
  | 0, _ => none
  | fuel + 1, a =>
    let next := a.preInc
    if Addr.le next to then (addressesLoop to fuel next).map (a :: ·) else some [a]

/-- `addr_range::to_addresses()`, addr_range.cpp:441-474. `none` when the fuel does not suffice; the call does not end
when no fuel suffices. -/
def toAddresses (r : Range) (limit : Nat) (fuel : Nat) : Option (Res (List Addr)) :=
  match r.size with
  | .ub w => some (.ub w)
  | .throw e => some (.throw e)
  | .ok n =>
    if n > limit then some (.throw .outOfRange)
    else if r.hasFrom && r.hasTo then (addressesLoop r.hi fuel r.lo).map .ok
    else if r.hasFrom then some (.ok [r.lo])
    else if r.hasTo then some (.ok [r.hi])
    else some (.ok [])

/-- The first loop of the static `addr_range::to_addresses()`, addr_range.cpp:479-483, on `size_t`. -/
def totalSize : List Range → (total : Nat) → Res Nat
  | [], total => .ok total
  | r :: rs, total =>
    match r.size with
    | .ok n => totalSize rs ((total + n) % 2 ^ 64)
    | .throw e => .throw e
    | .ub w => .ub w

/-- The second loop of the static `addr_range::to_addresses()`, addr_range.cpp:492-497. -/
def concatAddresses (limit fuel : Nat) : List Range → Option (Res (List Addr))
  | [] => some (.ok [])
  | r :: rs =>
    match r.toAddresses limit fuel with
    | none => none
    | some (.throw e) => some (.throw e)
    | some (.ub w) => some (.ub w)
    | some (.ok v) =>
      match concatAddresses limit fuel rs with
      | none => none
      | some (.throw e) => some (.throw e)
      | some (.ub w) => some (.ub w)
      | some (.ok v') => some (.ok (v ++ v'))

/-- The static `addr_range::to_addresses()`, addr_range.cpp:477-500. -/
def toAddressesAll (ranges : List Range) (limit fuel : Nat) : Option (Res (List Addr)) :=
  match totalSize ranges 0 with
  | .throw e => some (.throw e)
  | .ub w => some (.ub w)
  | .ok total => if total > limit then some (.throw .outOfRange) else concatAddresses limit fuel ranges

/-- `addr_range::intersection()`, addr_range.cpp:680-688. -/
def intersection (r rhs : Range) : Range :=
  setTo (if Addr.lt r.hi rhs.hi then r.hi else rhs.hi)
    (setFrom (if Addr.gt r.lo rhs.lo then r.lo else rhs.lo) default)

/-- The references `lhs_from`/`rhs_from` of addr_range.cpp:738,740,933,935. -/
def fromOrTo (r : Range) : Addr := if r.hasFrom then r.lo else r.hi

/-- The references `lhs_to`/`rhs_to` of addr_range.cpp:739,741,934,936. -/
def toOrFrom (r : Range) : Addr := if r.hasTo then r.hi else r.lo

/-- A call of `set_mask_count()` on a local variable, whose value is given back. -/
def withMaskCount (n : Int) (a : Addr) : Res Addr :=
  match Addr.setMaskCount n a with
  | (a', .ok ()) => .ok a'
  | (_, .throw e) => .throw e
  | (_, .ub w) => .ub w

/-- `addr_range::union_if_possible()`, addr_range.cpp:728-770. -/
def unionIfPossible (r rhs : Range) : Res Range :=
  if !r.isDefined && !rhs.isDefined then .ok default
  else
    let lhsFrom := r.fromOrTo
    let lhsTo := r.toOrFrom
    let rhsFrom := rhs.fromOrTo
    let rhsTo := rhs.toOrFrom
    if (Addr.le lhsFrom rhsTo && Addr.ge lhsTo rhsFrom) || (Addr.ge lhsTo rhsFrom && Addr.le lhsFrom rhsTo)
        || lhsFrom.isPrevious rhsTo || lhsTo.isNext rhsFrom then do
      let lo ← withMaskCount (min r.lo.getMaskSize rhs.lo.getMaskSize) (if Addr.lt lhsFrom rhsFrom then lhsFrom else rhsFrom)
      let hi ← withMaskCount (min r.hi.getMaskSize rhs.hi.getMaskSize) (if Addr.gt lhsTo rhsTo then lhsTo else rhsTo)
      if r.isRange || rhs.isRange || Addr.ne lo hi then return setTo hi (setFrom lo default)
      else return setFrom lo default
    else .ok default

/-- `addr_range::match()`, addr_range.cpp:791-815. -/
def matchAddr (r : Range) (address : Addr) : Res Bool :=
  if r.isEmpty then .ok false
  else if r.isRange then r.isIn address
  else if r.hasFrom then .ok (r.lo.matchAddr address)
  else .ok (r.hi.matchAddr address)

/-- `addr_range::compare()`, addr_range.cpp:885-990. -/
def compare (r rhs : Range) (mixed : Bool) : Res Compare :=
  if !r.isDefined || !rhs.isDefined then .ok .unordered
  else if r.isEmpty then (if rhs.isEmpty then .ok .unordered else .ok .last)
  else if rhs.isEmpty then .ok .first
  else if !mixed && r.isIpv4 && !rhs.isIpv4 then .ok .ipv4VsIpv6
  else if !mixed && !r.isIpv4 && rhs.isIpv4 then .ok .ipv6VsIpv4
  else
    let lhsFrom := r.fromOrTo
    let lhsTo := r.toOrFrom
    let rhsFrom := rhs.fromOrTo
    let rhsTo := rhs.toOrFrom
    if Addr.lt lhsTo rhsFrom then (if lhsTo.isNext rhsFrom then .ok .precedes else .ok .smaller)
    else if Addr.gt lhsFrom rhsTo then (if lhsFrom.isPrevious rhsTo then .ok .follows else .ok .larger)
    else if Addr.le lhsFrom rhsFrom then
      if Addr.ge lhsTo rhsTo then
        if Addr.eq lhsFrom rhsFrom && Addr.eq lhsTo rhsTo then .ok .equal else .ok .included
      else if Addr.eq lhsFrom rhsFrom then .ok .includes
      else .ok .overlapSmallVsLarge
    else if !Addr.ge lhsTo rhsFrom then .ub .assertFailed
    else if Addr.le lhsTo rhsTo then .ok .includes
    else .ok .overlapLargeVsSmall

/-- `addr_range::operator <`, addr_range.cpp:1008-1025. -/
def lt (r rhs : Range) : Res Bool :=
  match r.compare rhs true with
  | .ok .smaller | .ok .overlapSmallVsLarge | .ok .included | .ok .precedes | .ok .first => .ok true
  | .ok _ => .ok false
  | .throw e => .throw e
  | .ub w => .ub w

end Range

/-- `address_match_ranges()`, addr_range.cpp:1039-1051. -/
def addressMatchRanges : List Range → Addr → Res Bool
  | [], _ => .ok false
  | r :: rs, a =>
    match r.matchAddr a with
    | .ok true => .ok true
    | .ok false => addressMatchRanges rs a
    | .throw e => .throw e
    | .ub w => .ub w

/-- The inner loop of `optimize_vector()`, addr_range.cpp:1082-1107. The arguments are `ra`, `v[i]` and the entries from
`v[j]` on. The result is `v[i]`, the entries after it, whether one was removed, and how the loop ended: an exception leaves
the vector as it is at that point. -/
def optimizeInner : (ra : Range) → (vi : Addr) → List Addr → Addr × List Addr × Bool × Res Unit
  | _, vi, [] => (vi, [], false, .ok ())
  | ra, vi, vj :: rest =>
    match Range.fromCidr vj with
    | .throw e => (vi, vj :: rest, false, .throw e)
    | .ub w => (vi, vj :: rest, false, .ub w)
    | .ok rb =>
      match ra.unionIfPossible rb with
      | .throw e => (vi, vj :: rest, false, .throw e)
      | .ub w => (vi, vj :: rest, false, .ub w)
      | .ok u =>
        let p := u.lo.applyMask false
        let q := u.lo.applyMask true
        if u.isDefined && (Addr.eq p u.lo && Addr.eq q u.hi) then
          let (vi', rest', _, e) := optimizeInner u p rest
          (vi', rest', true, e)
        else
          let (vi', rest', b, e) := optimizeInner ra vi rest
          (vi', vj :: rest', b, e)

theorem optimizeInner_length (ra : Range) (vi : Addr) (l : List Addr) : (optimizeInner ra vi l).2.1.length ≤ l.length := by
  induction l generalizing ra vi with
  | nil => simp [optimizeInner]
  | cons vj rest ih =>
    rw [optimizeInner]
    split
    · simp
    · simp
    · split
      · simp
      · simp
      · dsimp only
        split
        · exact Nat.le_succ_of_le (ih _ _)
        · exact Nat.succ_le_succ (ih _ _)

/-- The outer loop of `optimize_vector()`, addr_range.cpp:1078-1108, on the entries from `v[i]` on: the new entries, whether
one was removed, and how the loop ended. -/
def optimizeOuter : List Addr → List Addr × Bool × Res Unit
  | [] => ([], false, .ok ())
  | vi :: rest =>
    match Range.fromCidr vi with
    | .throw e => (vi :: rest, false, .throw e)
    | .ub w => (vi :: rest, false, .ub w)
    | .ok ra =>
      match h : optimizeInner ra vi rest with
      | (vi', rest', b, .ok ()) =>
        have : rest'.length ≤ rest.length := by
          have := optimizeInner_length ra vi rest
          rw [h] at this; exact this
        let (rest'', b', e) := optimizeOuter rest'
        (vi' :: rest'', b || b', e)
      | (vi', rest', b, e) => (vi' :: rest', b, e)
  termination_by l => l.length

/-- `optimize_vector()`, addr_range.cpp:1073-1111. The state is the vector. -/
def optimizeVector : SM (List Addr) Bool := fun v =>
  match optimizeOuter v with
  | (v', b, .ok ()) => (v', .ok b)
  | (v', _, .throw e) => (v', .throw e)
  | (v', _, .ub w) => (v', .ub w)

end Verif
