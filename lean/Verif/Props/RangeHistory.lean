import Verif.Model.RangeOps
import Verif.Props.RangeSet

/-!
# Property C121: a range is the two bounds which were set, whatever the calls
-/

namespace Verif

open Spec

/-- The bounds of a range: each may be missing. -/
structure Bounds where
  first : Option Addr
  last : Option Addr

/-- What a program sees of a range. -/
def Range.bounds (r : Range) : Bounds := ⟨if r.hasFrom then some r.lo else none, if r.hasTo then some r.hi else none⟩

/-- What each call is meant to do. -/
inductive ChangesBounds : RangeOp → Bounds → Bounds → Prop
  | setFrom (a : Addr) (b : Bounds) : ChangesBounds (.setFrom a) b ⟨some a, b.last⟩
  | setTo (a : Addr) (b : Bounds) : ChangesBounds (.setTo a) b ⟨b.first, some a⟩
  | swap (b : Bounds) : ChangesBounds .swapFromTo b ⟨b.last, b.first⟩
  | network {a x y : Addr} {n : Nat} (b : Bounds) (hn : n ≤ 128) (hm : ip a.getMask = prefixMask n) (hx : SameButIp a x) (hy : SameButIp a y)
      (hx' : ip x.getIpv6.addr = blockFirst (ip a.getIpv6.addr) n) (hy' : ip y.getIpv6.addr = blockLast (ip a.getIpv6.addr) n) :
      ChangesBounds (.fromCidr a) b ⟨some x, some y⟩
  | refused {a : Addr} (b : Bounds) (hm : ∀ n, n ≤ 128 → ip a.getMask ≠ prefixMask n) : ChangesBounds (.fromCidr a) b b
  | onFrom (op : AddrOp) (b : Bounds) : ChangesBounds (.onFrom op) b ⟨b.first.map fun a => (op.run a).1, b.last⟩
  | onTo (op : AddrOp) (b : Bounds) : ChangesBounds (.onTo op) b ⟨b.first, b.last.map fun a => (op.run a).1⟩

/-- What a sequence of calls is meant to do. -/
inductive ChangesAll : List RangeOp → Bounds → Bounds → Prop
  | nil (b : Bounds) : ChangesAll [] b b
  | cons {op : RangeOp} {ops : List RangeOp} {b c d : Bounds} (h : ChangesBounds op b c) (h' : ChangesAll ops c d) : ChangesAll (op :: ops) b d

/-- C121: each call changes the bounds as it is meant to. -/
theorem C121_call (op : RangeOp) (r : Range) : ChangesBounds op r.bounds (op.run r).bounds := by
  cases op with
  | setFrom a => exact .setFrom a r.bounds
  | setTo a => exact .setTo a r.bounds
  | swapFromTo => exact .swap r.bounds
  | fromCidr a =>
    rcases C27_from_cidr_throws_iff a with ⟨h1, h2⟩ | ⟨s, n, hn, h1, h2⟩
    · simp only [RangeOp.run, h1]
      exact .refused r.bounds h2
    · obtain ⟨s', _, h3, h4, h5, h6, h7, h8, _⟩ := C27_cidr_roundtrip a Addr.default n hn h2
      simp only [RangeOp.run, h3]
      have : s'.bounds = ⟨some s'.lo, some s'.hi⟩ := by rw [Range.bounds, h4.1, h4.2]; rfl
      rw [this]
      exact .network r.bounds hn h2 (by rw [h5]; exact sameButIp_setBytes ..) (by rw [h6]; exact sameButIp_setBytes ..) h7 h8
  | onFrom op =>
    have : ((RangeOp.onFrom op).run r).bounds = ⟨r.bounds.first.map fun a => (op.run a).1, r.bounds.last⟩ := by
      unfold Range.bounds RangeOp.run
      cases r.hasFrom <;> rfl
    rw [this]
    exact .onFrom op r.bounds
  | onTo op =>
    have : ((RangeOp.onTo op).run r).bounds = ⟨r.bounds.first, r.bounds.last.map fun a => (op.run a).1⟩ := by
      unfold Range.bounds RangeOp.run
      cases r.hasTo <;> rfl
    rw [this]
    exact .onTo op r.bounds

/-- C121: so does every sequence of calls, of which some may fail. -/
theorem C121_history (ops : List RangeOp) (r : Range) : ChangesAll ops r.bounds (RangeOp.runAll ops r).bounds := by
  induction ops generalizing r with
  | nil => exact .nil _
  | cons op ops ih => exact .cons (C121_call op r) (ih _)

/-- C121: a new range has no bounds, and the functions which tell which bounds there are follow them. -/
theorem C121_queries (r : Range) :
    Range.default.bounds = ⟨none, none⟩ ∧ (r.hasFrom = true ↔ r.bounds.first.isSome) ∧ (r.hasTo = true ↔ r.bounds.last.isSome)
      ∧ (r.isDefined = true ↔ r.bounds.first.isSome ∨ r.bounds.last.isSome) ∧ (r.isRange = true ↔ r.bounds.first.isSome ∧ r.bounds.last.isSome)
      ∧ (∀ a, r.bounds.first = some a → r.lo = a) ∧ (∀ a, r.bounds.last = some a → r.hi = a) := by
  unfold Range.bounds Range.isDefined Range.isRange
  refine ⟨rfl, ?_, ?_, ?_, ?_, ?_, ?_⟩ <;> cases r.hasFrom <;> cases r.hasTo <;> simp

/-- A call through the reference given by `get_from()` or `get_to()` is made only on a bound which is there. -/
inductive Disciplined : List RangeOp → Range → Prop
  | nil (r : Range) : Disciplined [] r
  | cons {op : RangeOp} {ops : List RangeOp} {r : Range} (h : (∀ o, op = .onFrom o → r.hasFrom = true) ∧ ∀ o, op = .onTo o → r.hasTo = true)
      (h' : Disciplined ops (op.run r)) : Disciplined (op :: ops) r

/-- A bound which is not there is a new address. -/
def MissingNew (r : Range) : Prop := (r.hasFrom = false → r.lo = Addr.default) ∧ (r.hasTo = false → r.hi = Addr.default)

theorem missingNew_run {op : RangeOp} {r : Range} (h : (∀ o, op = .onFrom o → r.hasFrom = true) ∧ ∀ o, op = .onTo o → r.hasTo = true)
    (hr : MissingNew r) : MissingNew (op.run r) := by
  cases op with
  | setFrom a => exact ⟨fun h => (nomatch h), hr.2⟩
  | setTo a => exact ⟨hr.1, fun h => (nomatch h)⟩
  | swapFromTo => exact ⟨hr.2, hr.1⟩
  | fromCidr a =>
    unfold RangeOp.run Range.fromCidr
    dsimp only
    by_cases hm : a.getMaskSize = -1
    · rw [if_pos hm]
      exact hr
    · rw [if_neg hm]
      exact ⟨fun h => (nomatch h), fun h => (nomatch h)⟩
  | onFrom op => exact ⟨fun h1 => absurd h1 (by rw [show ((RangeOp.onFrom op).run r).hasFrom = r.hasFrom from rfl, h.1 op rfl]; decide), hr.2⟩
  | onTo op => exact ⟨hr.1, fun h1 => absurd h1 (by rw [show ((RangeOp.onTo op).run r).hasTo = r.hasTo from rfl, h.2 op rfl]; decide)⟩

/-- C121: after any such sequence on a new range, `get_from()` and `get_to()` give a new address where the bound is missing. -/
theorem C121_missing (ops : List RangeOp) (h : Disciplined ops Range.default) :
    ((RangeOp.runAll ops Range.default).hasFrom = false → (RangeOp.runAll ops Range.default).lo = Addr.default)
      ∧ ((RangeOp.runAll ops Range.default).hasTo = false → (RangeOp.runAll ops Range.default).hi = Addr.default) := by
  have key : ∀ (ops : List RangeOp) (r : Range), Disciplined ops r → MissingNew r → MissingNew (RangeOp.runAll ops r) := by
    intro ops
    induction ops with
    | nil => exact fun _ _ h => h
    | cons op ops ih =>
      intro r h hr
      cases h with
      | cons h1 h2 => exact ih _ h2 (missingNew_run h1 hr)
  exact key ops _ h ⟨fun _ => rfl, fun _ => rfl⟩

/-- C121: therefore the bounds are all there is: ranges with the same bounds are the same, whatever the calls which gave them these bounds. -/
theorem C121_same (ops ops' : List RangeOp) (h : Disciplined ops Range.default) (h' : Disciplined ops' Range.default)
    (hb : (RangeOp.runAll ops Range.default).bounds = (RangeOp.runAll ops' Range.default).bounds) :
    RangeOp.runAll ops Range.default = RangeOp.runAll ops' Range.default := by
  have h1 := C121_missing ops h
  have h2 := C121_missing ops' h'
  generalize RangeOp.runAll ops Range.default = r at *
  generalize RangeOp.runAll ops' Range.default = s at *
  obtain ⟨a, b, x, y⟩ := r
  obtain ⟨c, d, z, w⟩ := s
  unfold Range.bounds at hb
  obtain ⟨e1, e2⟩ := Bounds.mk.inj hb
  dsimp only at h1 h2 e1 e2
  have k1 : a = c ∧ x = z := by
    cases a <;> cases c <;> simp at e1 h1 h2 ⊢
    · rw [h1.1, h2.1]
    · exact e1
  have k2 : b = d ∧ y = w := by
    cases b <;> cases d <;> simp at e2 h1 h2 ⊢
    · rw [h1.2, h2.2]
    · exact e2
  rw [k1.1, k1.2, k2.1, k2.2]

/-- The documentation of `get_from()`: it gives a new address whenever `has_from()` is false. -/
def C121_claim : Prop := ∀ ops, (RangeOp.runAll ops Range.default).hasFrom = false → (RangeOp.runAll ops Range.default).lo = Addr.default

/-- It is not so when the address is changed through the reference first: `has_from()` does not follow. -/
theorem C121_claim_fails : ¬ C121_claim := by
  intro h
  have := h [.onFrom .setIpv4Loopback] rfl
  revert this
  decide

/-! ### Examples -/

/-- Set the end and swap: the range has a start only, and the missing end is a new address. -/
example : (RangeOp.runAll [.setTo (sampleV4 10 0 0 1), .swapFromTo] Range.default).bounds = ⟨some (sampleV4 10 0 0 1), none⟩
    ∧ (RangeOp.runAll [.setTo (sampleV4 10 0 0 1), .swapFromTo] Range.default).hi = Addr.default :=
  ⟨rfl, (C121_missing _ (.cons ⟨by simp, by simp⟩ (.cons ⟨by simp, by simp⟩ (.nil _)))).2 rfl⟩

/-- It is the one made by setting the start. -/
example : RangeOp.runAll [.setTo (sampleV4 10 0 0 1), .swapFromTo] Range.default = RangeOp.runAll [.setFrom (sampleV4 10 0 0 1)] Range.default :=
  C121_same _ _ (.cons ⟨by simp, by simp⟩ (.cons ⟨by simp, by simp⟩ (.nil _)))
    (.cons ⟨by simp, by simp⟩ (.nil _)) rfl

end Verif
