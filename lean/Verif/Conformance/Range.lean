import Verif.Conformance.Env

/-!
# Conformance of the ranges: tests of `catch_range.cpp`

These are tests, see `Verif.Conformance.Env`.
-/

namespace Verif.Conformance

/-- A range with only a start. -/
def start (a : Addr) : Range := Range.default.setFrom a

/-- A range with only an end. -/
def stop (a : Addr) : Range := Range.default.setTo a

/-- A range. -/
def range (a b : Addr) : Range := (Range.default.setFrom a).setTo b

/-- The text of a range. -/
def text (r : Range) : Str := shown (r.toStr db STRING_IP_ADDRESS)

/-- The text of a range and its flags, for a result. -/
def described : Res Range → Str × Bool × Bool × Bool
  | .ok r => (text r, r.isDefined, r.isRange, r.isEmpty)
  | _ => ("THROW".toList, false, false, false)

/-! ## Defaults, matching and printing -/

/-- The first address. -/
def first : Addr := v4 10 0 0 1 77

/-- The last address. -/
def last : Addr := v4 10 0 0 254 99

example : Range.default.isEmpty = false ∧ Range.default.isIpv4 = false ∧ Range.default.size = .ok 0 ∧
    Range.default.isIn Addr.default = .throw .invalidState ∧
    [Addr.default, first, last].map Range.default.matchAddr = [.ok true, .ok false, .ok false] := by decide +kernel
example : (start first).isIn Addr.default = .throw .invalidState ∧ (start first).size = .ok 1 ∧
    [Addr.default, first, last].map (start first).matchAddr = [.ok false, .ok true, .ok false] ∧
    (start first).toStr db STRING_IP_ALL = .ok "10.0.0.1:77/32".toList ∧
    (start first).swapFromTo.toStr db STRING_IP_ALL = .ok "-10.0.0.1:77/32".toList := by decide +kernel
example : (start first).swapFromTo.isIpv4 = true ∧ (start first).swapFromTo.size = .ok 1 ∧
    [Addr.default, first, last].map (start first).swapFromTo.matchAddr = [.ok false, .ok true, .ok false] := by decide +kernel
example : (range first last).size = .ok 254 ∧ (range first last).isEmpty = false ∧
    [Addr.default, first, last].map (range first last).matchAddr = [.ok false, .ok true, .ok true] ∧
    (range first last).toStr db STRING_IP_ALL = .ok "10.0.0.1-10.0.0.254:99/32".toList ∧
    (stop last).toStr db STRING_IP_ALL = .ok "-10.0.0.254:99/32".toList := by decide +kernel
example : (range last first).isEmpty = true ∧
    [Addr.default, first, last].map (range last first).matchAddr = [.ok false, .ok false, .ok false] ∧
    (range last first).toStr db STRING_IP_ALL = .ok "<empty address range>".toList := by decide +kernel

/-! ## Comparisons -/

/-- 10.7.8.9, 20.7.8.9 and 10.7.8.10. -/
def a1 : Addr := v4 10 7 8 9
/-- See `a1`. -/
def a2 : Addr := v4 20 7 8 9
/-- See `a1`. -/
def a3 : Addr := v4 10 7 8 10

example : Range.default.compare Range.default false = .ok .unordered ∧
    (start a1).compare Range.default false = .ok .unordered ∧
    Range.default.compare (start a1) false = .ok .unordered ∧
    (start a1).compare (start a1) false = .ok .equal ∧
    (start a1).compare (start a2) false = .ok .smaller ∧ (start a2).compare (start a1) false = .ok .larger ∧
    (start a1).compare (start a3) false = .ok .precedes ∧ (start a3).compare (start a1) false = .ok .follows := by decide +kernel
example : (stop a1).compare Range.default false = .ok .unordered ∧
    Range.default.compare (stop a1) false = .ok .unordered ∧
    (stop a1).compare (stop a1) false = .ok .equal ∧
    (stop a1).compare (stop a2) false = .ok .smaller ∧ (stop a2).compare (stop a1) false = .ok .larger ∧
    (stop a1).compare (stop a3) false = .ok .precedes ∧ (stop a3).compare (stop a1) false = .ok .follows := by decide +kernel
example : (start a1).compare (stop a2) false = .ok .smaller ∧ (stop a2).compare (start a1) false = .ok .larger ∧
    (start a1).compare (stop a3) false = .ok .precedes ∧ (stop a3).compare (start a1) false = .ok .follows := by decide +kernel

/-- 10.5.7.32-10.5.7.37. -/
def low : Range := range (v4 10 5 7 32) (v4 10 5 7 37)

/-- 20.5.7.22-20.5.7.32. -/
def high : Range := range (v4 20 5 7 22) (v4 20 5 7 32)

/-- 20.5.7.32-20.5.7.22, which is empty. -/
def empty : Range := range (v4 20 5 7 32) (v4 20 5 7 22)

example : low.compare low false = .ok .equal ∧ low.compare Range.default false = .ok .unordered ∧
    Range.default.compare low false = .ok .unordered ∧
    low.compare (start (v4 20 5 7 32)) false = .ok .smaller ∧ (start (v4 20 5 7 32)).compare low false = .ok .larger ∧
    low.compare (stop (v4 20 5 7 32)) false = .ok .smaller ∧ (stop (v4 20 5 7 32)).compare low false = .ok .larger ∧
    low.compare high false = .ok .smaller ∧ high.compare low false = .ok .larger ∧
    high.compare high false = .ok .equal := by decide +kernel
example : low.compare empty false = .ok .first ∧ empty.compare low false = .ok .last ∧
    empty.compare empty false = .ok .unordered ∧
    low.compare (range (v4 10 5 7 38) (v4 20 5 7 32)) false = .ok .precedes ∧
    (range (v4 10 5 7 38) (v4 20 5 7 32)).compare low false = .ok .follows ∧
    low.compare (range (v4 10 5 7 37) (v4 20 5 7 32)) false = .ok .overlapSmallVsLarge ∧
    (range (v4 10 5 7 37) (v4 20 5 7 32)).compare low false = .ok .overlapLargeVsSmall := by decide +kernel
example : (start a1).compare (start (v6 "f800::")) false = .ok .ipv4VsIpv6 ∧
    (start (v6 "f800::")).compare (start a1) false = .ok .ipv6VsIpv4 ∧
    (start a1).compare (start (v6 "f800::")) true = .ok .smaller ∧
    (start (v6 "f800::")).compare (start a1) true = .ok .larger ∧
    (start a1).compare (start (v6 "::1")) false = .ok .ipv4VsIpv6 ∧
    (start (v6 "::1")).compare (start a1) false = .ok .ipv6VsIpv4 ∧
    (start a1).compare (start (v6 "::1")) true = .ok .larger ∧
    (start (v6 "::1")).compare (start a1) true = .ok .smaller := by decide +kernel

/-! ## CIDR -/

/-- The range of the network of 10.77.88.99 with a mask of `n` bits, and its size. -/
def cidr (n : Nat) : Str × Res Nat :=
  match (v4 10 77 88 99).setMaskCount (96 + (n : Int)) with
  | (a, .ok _) =>
    match Range.fromCidr a with
    | .ok r => (text r, r.size)
    | _ => ([], .ok 0)
  | _ => ([], .ok 0)

example : cidr 0 = ("0.0.0.0-255.255.255.255".toList, .ok 4294967296) := by decide +kernel
example : cidr 4 = ("0.0.0.0-15.255.255.255".toList, .ok 268435456) := by decide +kernel
example : cidr 7 = ("10.0.0.0-11.255.255.255".toList, .ok 33554432) := by decide +kernel
example : cidr 13 = ("10.72.0.0-10.79.255.255".toList, .ok 524288) := by decide +kernel
example : cidr 20 = ("10.77.80.0-10.77.95.255".toList, .ok 4096) := by decide +kernel
example : cidr 26 = ("10.77.88.64-10.77.88.127".toList, .ok 64) := by decide +kernel
example : cidr 31 = ("10.77.88.98-10.77.88.99".toList, .ok 2) := by decide +kernel
example : cidr 32 = ("10.77.88.99-10.77.88.99".toList, .ok 1) := by decide +kernel

/-- The text of the network a range is, if it is one. -/
def network (r : Range) : Res Bool × Str :=
  ((r.toCidr .default).2, shown ((r.toCidr .default).1.toIpv4or6String db STRING_IP_ALL))

/-- An address with a mask of a number of bits. -/
def net (a : Addr) (n : Int) : Addr := (a.setMaskCount n).1

example : (network Range.default).1 = .ok false := by decide +kernel
example : network (range (net (v4 192 168 0 0) 112) ((net (v4 192 168 0 0) 112).applyMask true))
    = (.ok true, "192.168.0.0:0/16".toList) := by decide +kernel
example : network (range (net (v4 10 0 0 0) 104) ((net (v4 10 0 0 0) 104).applyMask true))
    = (.ok true, "10.0.0.0:0/8".toList) := by decide +kernel
example : (network (range (net (v4 10 0 0 0) 104) (v4 10 205 111 64))).1 = .ok false := by decide +kernel

/-! ## Intersection, union and lists -/

/-- 10.1.0.0-10.5.255.255. -/
def u1 : Range := range (v4 10 1 0 0) (v4 10 5 255 255)
/-- 10.2.0.0-10.10.255.255. -/
def u2 : Range := range (v4 10 2 0 0) (v4 10 10 255 255)
/-- 10.10.0.0-10.20.255.255. -/
def u3 : Range := range (v4 10 10 0 0) (v4 10 20 255 255)

/-- A range which is neither defined nor a range nor empty. -/
def nothing : Str × Bool × Bool × Bool := ("<empty address range>".toList, false, false, false)

example : text (u1.intersection u2) = "10.2.0.0-10.5.255.255".toList ∧ (u1.intersection u3).isEmpty = true := by decide +kernel
example : [u1.lo, u1.hi, u3.lo, u3.hi].map (addressMatchRanges [u1, u3]) = [.ok true, .ok true, .ok true, .ok true] := by
  decide +kernel
example : described (Range.default.unionIfPossible .default) = nothing ∧
    described ((start u1.lo).unionIfPossible .default) = nothing ∧
    described (Range.default.unionIfPossible (start u1.lo)) = nothing ∧
    described ((start u1.lo).unionIfPossible (start u1.lo)) = ("10.1.0.0".toList, true, false, false) ∧
    described ((start u1.lo).unionIfPossible (start u2.lo)) = nothing := by decide +kernel
example : described (u1.unionIfPossible (start u2.lo)) = ("10.1.0.0-10.5.255.255".toList, true, true, false) ∧
    described ((start u2.lo).unionIfPossible u1) = ("10.1.0.0-10.5.255.255".toList, true, true, false) ∧
    described (u1.unionIfPossible u2) = ("10.1.0.0-10.10.255.255".toList, true, true, false) := by decide +kernel
example : described ((range (v4 10 1 0 0) (v4 10 5 32 21)).unionIfPossible (range (v4 10 5 32 22) (v4 10 11 255 255)))
      = ("10.1.0.0-10.11.255.255".toList, true, true, false) ∧
    ((range (v4 10 1 0 0) (v4 10 5 32 21)).intersection (range (v4 10 5 32 22) (v4 10 11 255 255))).isEmpty = true := by
  decide +kernel

/-- Two ranges with ports and one without addresses. -/
def listed : List Range :=
  [range (v4 10 1 0 0 5) (v4 10 1 0 255 6), range (v4 10 10 0 0 7) (v4 10 10 1 255 8), .default]

example : Range.toStrAll db STRING_IP_ALL [','] listed true
    = .ok "10.1.0.0-10.1.0.255:6/32,10.10.0.0-10.10.1.255:8/32,<empty address range>".toList := by decide +kernel
example : (match Range.toAddressesAll listed 1000 2000 with
      | some (.ok l) => (l.length, [0, 255, 256, 767].map fun i => (l[i]?).map fun a => shown (a.toIpv4or6String db 1))
      | _ => (0, []))
    = (768, ["10.1.0.0", "10.1.0.255", "10.10.0.0", "10.10.1.255"].map fun s => some s.toList) := by decide +kernel
example : Range.toAddressesAll listed 767 2000 = some (.throw .outOfRange) := by decide +kernel

/-- `optimize_vector()` on 192.168.45.3 and on its networks with some bits less. -/
def optimized (bits : List Nat) : Res Bool × List Str :=
  let l := (v4 192 168 45 3) :: bits.map fun (m : Nat) => (net (v4 192 168 45 3) (128 - (m : Int))).applyMask false
  ((optimizeVector l).2, (optimizeVector l).1.map fun a => shown (a.toIpv4or6String db STRING_IP_ALL))

example : optimized [0, 0, 0, 0, 0] = (.ok true, ["192.168.45.3:0/32".toList]) := by decide +kernel
example : optimized [1, 5, 3, 2, 31] = (.ok true, ["128.0.0.0:0/1".toList]) := by decide +kernel
example : optimized [27, 28, 29, 30, 31] = (.ok true, ["128.0.0.0:0/1".toList]) := by decide +kernel
example : optimized [8, 0, 16, 2, 16] = (.ok true, ["192.168.0.0:0/16".toList]) := by decide +kernel
example : optimized [1, 0, 1, 0, 1] = (.ok true, ["192.168.45.2:0/31".toList]) := by decide +kernel

end Verif.Conformance
