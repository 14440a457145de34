import Verif.Props.RangeSet

/-!
# Properties C30–C32: union, comparison and order of ranges
-/

namespace Verif

open Spec

theorem ip_fromOrTo (r : Range) : ip r.fromOrTo.bytes = first r := by
  unfold Range.fromOrTo first; split <;> rfl

theorem ip_toOrFrom (r : Range) : ip r.toOrFrom.bytes = last r := by
  unfold Range.toOrFrom last; split <;> rfl

theorem first_of_complete {r : Range} (h : Complete r) : first r = fromIp r := by simp [first, h.1]

theorem last_of_complete {r : Range} (h : Complete r) : last r = toIp r := by simp [last, h.2]

/-- A defined range is empty exactly when its first address is after its last one. -/
theorem isEmpty_first_last {r : Range} (h : Defined r) : r.isEmpty = true ↔ last r < first r := by
  rw [isEmpty_iff]
  unfold Complete first last
  rcases h with h | h <;> cases h1 : r.hasFrom <;> cases h2 : r.hasTo <;> simp_all

/-! ## C30 -/

theorem withMaskCount_ok {a : Addr} {n : Int} (h : MaskCountAccepted (ip a.bytes) n) :
    ∃ a', Range.withMaskCount n a = .ok a' ∧ a'.bytes = a.bytes ∧ a'.getMaskSize = n := by
  obtain ⟨a', h1, h2, _, _, h3⟩ := C08_mask_count_roundtrip a n h
  refine ⟨a', by simp [Range.withMaskCount, h1], ?_, h2⟩
  unfold Addr.bytes; rw [h3.address]

theorem withMaskCount_throw {a : Addr} {n : Int} (h : ¬ MaskCountAccepted (ip a.bytes) n) :
    Range.withMaskCount n a = .throw .outOfRange := by
  simp [Range.withMaskCount, C08_mask_count_refused a n h]

/-- The condition under which `union_if_possible()` builds a range. -/
theorem union_cond (r s : Range) :
    ((Addr.le r.fromOrTo s.toOrFrom && Addr.ge r.toOrFrom s.fromOrTo)
        || (Addr.ge r.toOrFrom s.fromOrTo && Addr.le r.fromOrTo s.toOrFrom)
        || r.fromOrTo.isPrevious s.toOrFrom || r.toOrFrom.isNext s.fromOrTo) = true
      ↔ (first r ≤ last s ∧ first s ≤ last r) ∨ last s + 1 = first r ∨ first s = last r + 1 := by
  simp only [Bool.or_eq_true, Bool.and_eq_true, le_ip, ge_ip, isPrevious_ip, isNext_ip, decide_eq_true_iff, ip_fromOrTo,
    ip_toOrFrom]
  omega

theorem ip_min (a b : Addr) : ip (if Addr.lt a b then a else b).bytes = min (ip a.bytes) (ip b.bytes) := by
  rw [lt_ip]; split <;> rename_i h <;> simp only [decide_eq_true_eq] at h <;> omega

theorem ip_max (a b : Addr) : ip (if Addr.gt a b then a else b).bytes = max (ip a.bytes) (ip b.bytes) := by
  rw [gt_ip]; split <;> rename_i h <;> simp only [decide_eq_true_eq] at h <;> omega

/-- Whether the two calls of `set_mask_count()` made for the union accept their argument. -/
def UnionMasksAccepted (r s : Range) : Prop :=
  MaskCountAccepted (min (first r) (first s)) (min r.lo.getMaskSize s.lo.getMaskSize)
    ∧ MaskCountAccepted (max (last r) (last s)) (min r.hi.getMaskSize s.hi.getMaskSize)

instance (r s : Range) : Decidable (UnionMasksAccepted r s) := inferInstanceAs (Decidable (_ ∧ _))

/-- C30: the three outcomes of the union of two defined ranges (empty ones included). -/
theorem union_cases (r s : Range) (hr : Defined r) :
    let meets := (first r ≤ last s ∧ first s ≤ last r) ∨ last s + 1 = first r ∨ first s = last r + 1
    (¬ meets → r.unionIfPossible s = .ok Range.default)
      ∧ (meets → ¬ UnionMasksAccepted r s → r.unionIfPossible s = .throw .outOfRange)
      ∧ (meets → UnionMasksAccepted r s → ∃ u, r.unionIfPossible s = .ok u ∧ Defined u
          ∧ first u = min (first r) (first s) ∧ last u = max (last r) (last s)
          ∧ u.lo.getMaskSize = min r.lo.getMaskSize s.lo.getMaskSize
          ∧ (Complete r ∨ Complete s → Complete u ∧ u.hi.getMaskSize = min r.hi.getMaskSize s.hi.getMaskSize)) := by
  intro meets
  have hd : ¬ ((!r.isDefined && !s.isDefined) = true) := by
    rw [(defined_isDefined r).2 hr]; simp
  refine ⟨?_, ?_, ?_⟩
  · intro hm
    unfold Range.unionIfPossible
    rw [if_neg hd]
    simp only
    rw [if_neg (fun h => hm ((union_cond r s).1 h))]
  · intro hm ha
    unfold Range.unionIfPossible
    rw [if_neg hd]
    simp only
    rw [if_pos ((union_cond r s).2 hm)]
    by_cases h1 : MaskCountAccepted (min (first r) (first s)) (min r.lo.getMaskSize s.lo.getMaskSize)
    · obtain ⟨lo, e1, _⟩ := withMaskCount_ok (a := if Addr.lt r.fromOrTo s.fromOrTo then r.fromOrTo else s.fromOrTo)
        (n := min r.lo.getMaskSize s.lo.getMaskSize) (by rw [ip_min, ip_fromOrTo, ip_fromOrTo]; exact h1)
      have e2 := withMaskCount_throw (a := if Addr.gt r.toOrFrom s.toOrFrom then r.toOrFrom else s.toOrFrom)
        (n := min r.hi.getMaskSize s.hi.getMaskSize) (by rw [ip_max, ip_toOrFrom, ip_toOrFrom]; exact fun h => ha ⟨h1, h⟩)
      rw [e1, e2]; rfl
    · have e1 := withMaskCount_throw (a := if Addr.lt r.fromOrTo s.fromOrTo then r.fromOrTo else s.fromOrTo)
        (n := min r.lo.getMaskSize s.lo.getMaskSize) (by rw [ip_min, ip_fromOrTo, ip_fromOrTo]; exact h1)
      rw [e1]; rfl
  · intro hm ⟨ha1, ha2⟩
    unfold Range.unionIfPossible
    rw [if_neg hd]
    simp only
    rw [if_pos ((union_cond r s).2 hm)]
    obtain ⟨lo, e1, f1, g1⟩ := withMaskCount_ok (a := if Addr.lt r.fromOrTo s.fromOrTo then r.fromOrTo else s.fromOrTo)
        (n := min r.lo.getMaskSize s.lo.getMaskSize) (by rw [ip_min, ip_fromOrTo, ip_fromOrTo]; exact ha1)
    obtain ⟨hi, e2, f2, g2⟩ := withMaskCount_ok (a := if Addr.gt r.toOrFrom s.toOrFrom then r.toOrFrom else s.toOrFrom)
        (n := min r.hi.getMaskSize s.hi.getMaskSize) (by rw [ip_max, ip_toOrFrom, ip_toOrFrom]; exact ha2)
    have hlo : ip lo.bytes = min (first r) (first s) := by rw [f1, ip_min, ip_fromOrTo, ip_fromOrTo]
    have hhi : ip hi.bytes = max (last r) (last s) := by rw [f2, ip_max, ip_toOrFrom, ip_toOrFrom]
    rw [e1, e2]
    simp only [Res.bind_ok, Res.pure_eq]
    by_cases hrs : (r.isRange || s.isRange || Addr.ne lo hi) = true
    · rw [if_pos hrs]
      exact ⟨_, rfl, .inl rfl, hlo, hhi, g1, fun _ => ⟨⟨rfl, rfl⟩, g2⟩⟩
    · rw [if_neg hrs]
      simp only [Bool.or_eq_true, not_or, ne_ip, decide_eq_true_iff, complete_isRange, Decidable.not_not] at hrs
      refine ⟨_, rfl, .inl rfl, hlo, ?_, g1, ?_⟩
      · rw [← hhi, ← hrs.2]; rfl
      · rintro (h | h)
        · exact absurd h hrs.1.1
        · exact absurd h hrs.1.2

/-- C30, full statement. -/
def C30_claim : Prop := ∀ r s : Range, Defined r → Defined s → first r ≤ last r → first s ≤ last s →
  ∃ u, r.unionIfPossible s = .ok u
    ∧ (Defined u ↔ meetOrTouch (first r) (last r) (first s) (last s))
    ∧ (Defined u → ∀ v, between v (first u) (last u) ↔ between v (first r) (last r) ∨ between v (first s) (last s))

/-- C30, for two defined non-empty ranges: a range is built exactly when they overlap or touch, and it holds the addresses
of both. Missing from the full statement: the masks. The function copies the smaller mask size to the new bounds, and
throws `out_of_range` when a bound does not accept it (`C30_union_throws`). -/
theorem C30_union_partial (r s : Range) (hr : Defined r) (_hs : Defined s) (h1 : first r ≤ last r) (h2 : first s ≤ last s)
    (hm : UnionMasksAccepted r s) :
    ∃ u, r.unionIfPossible s = .ok u
      ∧ (Defined u ↔ meetOrTouch (first r) (last r) (first s) (last s))
      ∧ (Defined u → ∀ v, between v (first u) (last u) ↔ between v (first r) (last r) ∨ between v (first s) (last s)) := by
  obtain ⟨c1, _, c3⟩ := union_cases r s hr
  by_cases hmeet : (first r ≤ last s ∧ first s ≤ last r) ∨ last s + 1 = first r ∨ first s = last r + 1
  · obtain ⟨u, e, hd, f, l, _⟩ := c3 hmeet hm
    refine ⟨u, e, ⟨fun _ => ?_, fun _ => hd⟩, ?_⟩
    · unfold meetOrTouch; omega
    · intro _ v
      rw [f, l]; unfold between; omega
  · refine ⟨_, c1 hmeet, ⟨fun h => absurd h (by decide), fun h => ?_⟩, fun h => absurd h (by decide)⟩
    unfold meetOrTouch at h; omega

/-- C30: empty operands included, a range which is built holds exactly the addresses of the operands. -/
theorem C30_union_sound (r s u : Range) (hr : Defined r) (_hs : Defined s) (h : r.unionIfPossible s = .ok u) (hu : Defined u)
    (v : Nat) : between v (first u) (last u) ↔ between v (first r) (last r) ∨ between v (first s) (last s) := by
  obtain ⟨c1, c2, c3⟩ := union_cases r s hr
  by_cases hmeet : (first r ≤ last s ∧ first s ≤ last r) ∨ last s + 1 = first r ∨ first s = last r + 1
  · by_cases hm : UnionMasksAccepted r s
    · obtain ⟨u', e, _, f, l, _⟩ := c3 hmeet hm
      rw [e] at h
      cases h
      rw [f, l]; unfold between; omega
    · rw [c2 hmeet hm] at h; cases h
  · rw [c1 hmeet] at h
    cases h
    exact absurd hu (by decide)

/-- C30: for ranges which overlap or touch, the union throws exactly when one of the new bounds refuses the mask size. -/
theorem C30_union_throws (r s : Range) (hr : Defined r) (h1 : first r ≤ last r) (h2 : first s ≤ last s) :
    r.unionIfPossible s = .throw .outOfRange
      ↔ meetOrTouch (first r) (last r) (first s) (last s) ∧ ¬ UnionMasksAccepted r s := by
  obtain ⟨c1, c2, c3⟩ := union_cases r s hr
  by_cases hmeet : (first r ≤ last s ∧ first s ≤ last r) ∨ last s + 1 = first r ∨ first s = last r + 1
  · have hmt : meetOrTouch (first r) (last r) (first s) (last s) := by unfold meetOrTouch; omega
    by_cases hm : UnionMasksAccepted r s
    · obtain ⟨u', e, _⟩ := c3 hmeet hm
      rw [e]
      exact ⟨(fun h => nomatch h), fun h => absurd hm h.2⟩
    · exact ⟨fun _ => ⟨hmt, hm⟩, fun _ => c2 hmeet hm⟩
  · rw [c1 hmeet]
    refine ⟨(fun h => nomatch h), fun h => ?_⟩
    have := h.1
    unfold meetOrTouch at this; omega

/-- C30: the operation is commutative on the outcome and on the bounds. -/
theorem C30_union_comm (r s : Range) (hr : Defined r) (hs : Defined s) :
    (∃ u u', r.unionIfPossible s = .ok u ∧ s.unionIfPossible r = .ok u' ∧ (Defined u ↔ Defined u')
        ∧ first u = first u' ∧ last u = last u')
      ∨ (r.unionIfPossible s = .throw .outOfRange ∧ s.unionIfPossible r = .throw .outOfRange) := by
  obtain ⟨c1, c2, c3⟩ := union_cases r s hr
  obtain ⟨d1, d2, d3⟩ := union_cases s r hs
  have hsym : UnionMasksAccepted r s ↔ UnionMasksAccepted s r := by
    unfold UnionMasksAccepted
    rw [Nat.min_comm, Nat.max_comm, Int.min_comm, Int.min_comm (r.hi.getMaskSize)]
  by_cases hmeet : (first r ≤ last s ∧ first s ≤ last r) ∨ last s + 1 = first r ∨ first s = last r + 1
  · by_cases hm : UnionMasksAccepted r s
    · obtain ⟨u, e, f, g, h, _⟩ := c3 hmeet hm
      obtain ⟨u', e', f', g', h', _⟩ := d3 (by omega) (hsym.1 hm)
      exact .inl ⟨u, u', e, e', ⟨fun _ => f', fun _ => f⟩, by omega, by omega⟩
    · exact .inr ⟨c2 hmeet hm, d2 (by omega) (fun h => hm (hsym.2 h))⟩
  · exact .inl ⟨_, _, c1 hmeet, d1 (by omega), Iff.rfl, rfl, rfl⟩

/-- The block `::/80` as a range. -/
def zero80 : Range :=
  sampleRange { Addr.default with mask := prefixBytes 80, maskDefined := true }
    { sampleAddr #v[0, 0, 0, 0, 0, 0, 0, 0, 0, 0, 255, 255, 255, 255, 255, 255] with mask := prefixBytes 80, maskDefined := true }

/-- C30 does not hold as stated: the union of the block `::/80` with itself throws, its last address being one of the
IPv4 addresses, which do not accept a mask of 80 bits. -/
theorem C30_claim_fails : ¬ C30_claim := by
  intro h
  obtain ⟨u, hu, _⟩ := h zero80 zero80 (by decide) (by decide) (by decide) (by decide)
  have : zero80.unionIfPossible zero80 = .throw .outOfRange := by decide +kernel
  rw [this] at hu; cases hu

example : Range.fromCidr { Addr.default with mask := prefixBytes 80, maskDefined := true } = .ok zero80 := by decide +kernel

example : UnionMasksAccepted (sampleRange (sampleV4 10 0 0 0) (sampleV4 10 0 0 9)) (sampleRange (sampleV4 10 0 0 10) (sampleV4 10 0 1 0))
    ∧ meetOrTouch (first (sampleRange (sampleV4 10 0 0 0) (sampleV4 10 0 0 9))) (last (sampleRange (sampleV4 10 0 0 0) (sampleV4 10 0 0 9)))
      (first (sampleRange (sampleV4 10 0 0 10) (sampleV4 10 0 1 0))) (last (sampleRange (sampleV4 10 0 0 10) (sampleV4 10 0 1 0))) := by
  constructor
  · decide +kernel
  · unfold meetOrTouch; decide

/-! ## C31 -/

/-- The `compare_t` value documented for each relation of two intervals. -/
def code : Rel → Compare
  | .equal => .equal
  | .before => .smaller
  | .rightBefore => .precedes
  | .after => .larger
  | .rightAfter => .follows
  | .overlapBefore => .overlapSmallVsLarge
  | .overlapAfter => .overlapLargeVsSmall
  | .contains => .included
  | .inside => .includes

/-- The value for the exchanged operands. -/
def mirror : Compare → Compare
  | .equal => .equal
  | .smaller => .larger
  | .larger => .smaller
  | .overlapSmallVsLarge => .overlapLargeVsSmall
  | .overlapLargeVsSmall => .overlapSmallVsLarge
  | .included => .includes
  | .includes => .included
  | .precedes => .follows
  | .follows => .precedes
  | .first => .last
  | .last => .first
  | .ipv4VsIpv6 => .ipv6VsIpv4
  | .ipv6VsIpv4 => .ipv4VsIpv6
  | .unordered => .unordered

/-- Exactly one of the relations holds between two non-empty intervals. -/
theorem rel_unique {f1 l1 f2 l2 : Nat} (h1 : f1 ≤ l1) (h2 : f2 ≤ l2) {p q : Rel} (hp : p.holds f1 l1 f2 l2)
    (hq : q.holds f1 l1 f2 l2) : p = q := by
  cases p <;> cases q <;> simp only [Rel.holds] at hp hq <;> first | rfl | (exfalso; omega)

/-- The last part of `compare()`, for two defined non-empty ranges, as numbers. -/
def cmpNat (f1 l1 f2 l2 : Nat) : Rel :=
  if l1 < f2 then (if f2 = l1 + 1 then .rightBefore else .before)
  else if l2 < f1 then (if l2 + 1 = f1 then .rightAfter else .after)
  else if f1 ≤ f2 then
    if l2 ≤ l1 then (if f1 = f2 ∧ l1 = l2 then .equal else .contains)
    else if f1 = f2 then .inside
    else .overlapBefore
  else if l1 ≤ l2 then .inside
  else .overlapAfter

theorem cmpNat_holds (f1 l1 f2 l2 : Nat) : (cmpNat f1 l1 f2 l2).holds f1 l1 f2 l2 := by
  unfold cmpNat
  repeat' split
  all_goals (simp only [Rel.holds]; omega)

theorem compare_mixed {r s : Range} (hr : Defined r) (hs : Defined s) (h1 : first r ≤ last r) (h2 : first s ≤ last s) :
    r.compare s true = .ok (code (cmpNat (first r) (last r) (first s) (last s))) := by
  have d1 := (defined_isDefined r).2 hr
  have d2 := (defined_isDefined s).2 hs
  have e1 : r.isEmpty = false := by rw [← Bool.not_eq_true, isEmpty_first_last hr]; omega
  have e2 : s.isEmpty = false := by rw [← Bool.not_eq_true, isEmpty_first_last hs]; omega
  unfold Range.compare
  rw [if_neg (by simp [d1, d2]), if_neg (by simp [e1]), if_neg (by simp [e2]), if_neg (by simp), if_neg (by simp)]
  simp only [lt_ip, gt_ip, le_ip, ge_ip, eq_ip, isNext_ip, isPrevious_ip, ip_fromOrTo, ip_toOrFrom, decide_eq_true_eq,
    Bool.and_eq_true, Bool.not_eq_true', decide_eq_false_iff_not]
  unfold cmpNat
  repeat' split
  all_goals first | rfl | (exfalso; omega)

/-- C31: on two defined non-empty ranges, `compare()` with `mixed` answers a relation exactly when it holds between the two
intervals; so it never fails, and never answers anything but one of these nine relations. -/
theorem C31_compare_classifies (r s : Range) (hr : Defined r) (hs : Defined s) (h1 : first r ≤ last r) (h2 : first s ≤ last s) :
    (∃ rel, r.compare s true = .ok (code rel))
      ∧ ∀ rel : Rel, r.compare s true = .ok (code rel) ↔ rel.holds (first r) (last r) (first s) (last s) := by
  have h := compare_mixed hr hs h1 h2
  refine ⟨⟨_, h⟩, fun rel => ?_⟩
  rw [h, Res.ok.injEq]
  have hc : ∀ p q : Rel, code p = code q ↔ p = q := by intro p q; cases p <;> cases q <;> decide
  rw [hc]
  constructor
  · rintro rfl; exact cmpNat_holds _ _ _ _
  · exact rel_unique h1 h2 (cmpNat_holds _ _ _ _)

/-- C31: the answers for ranges which are undefined or empty, whatever `mixed`. -/
theorem C31_compare_degenerate (r s : Range) (mixed : Bool) :
    ((¬ Defined r ∨ ¬ Defined s) → r.compare s mixed = .ok .unordered)
      ∧ (Defined r → Defined s → last r < first r → last s < first s → r.compare s mixed = .ok .unordered)
      ∧ (Defined r → Defined s → last r < first r → first s ≤ last s → r.compare s mixed = .ok .last)
      ∧ (Defined r → Defined s → first r ≤ last r → last s < first s → r.compare s mixed = .ok .first) := by
  have hd : Defined r → Defined s → ¬ ((!r.isDefined || !s.isDefined) = true) := by
    intro h1 h2
    simp [(defined_isDefined r).2 h1, (defined_isDefined s).2 h2]
  refine ⟨?_, ?_, ?_, ?_⟩
  · intro h
    unfold Range.compare
    rw [if_pos]
    rw [Bool.or_eq_true, Bool.not_eq_true', Bool.not_eq_true', ← Bool.not_eq_true, ← Bool.not_eq_true,
      defined_isDefined, defined_isDefined]
    exact h
  · intro h1 h2 h3 h4
    unfold Range.compare
    rw [if_neg (hd h1 h2), if_pos ((isEmpty_first_last h1).2 h3), if_pos ((isEmpty_first_last h2).2 h4)]
  · intro h1 h2 h3 h4
    unfold Range.compare
    rw [if_neg (hd h1 h2), if_pos ((isEmpty_first_last h1).2 h3), if_neg]
    rw [isEmpty_first_last h2]; omega
  · intro h1 h2 h3 h4
    unfold Range.compare
    rw [if_neg (hd h1 h2), if_neg, if_pos ((isEmpty_first_last h2).2 h4)]
    rw [isEmpty_first_last h1]; omega

/-- C31: whether a defined range counts as IPv4: its bounds do. -/
theorem isIpv4_range {r : Range} (h : Defined r) : r.isIpv4 = true ↔ isV4 (first r) ∧ isV4 (last r) := by
  have hl : r.lo.isIpv4 = true ↔ isV4 (fromIp r) := isIpv4_iff r.lo
  have hh : r.hi.isIpv4 = true ↔ isV4 (toIp r) := isIpv4_iff r.hi
  unfold Range.isIpv4 first last
  rcases h with h | h <;> cases h1 : r.hasFrom <;> cases h2 : r.hasTo <;> simp_all

/-- C31: without `mixed`, two defined non-empty ranges of different families are told apart by their families and the other
ones are compared as with `mixed`. -/
theorem C31_compare_families (r s : Range) (hr : Defined r) (hs : Defined s) (h1 : first r ≤ last r) (h2 : first s ≤ last s) :
    let v4r := isV4 (first r) ∧ isV4 (last r)
    let v4s := isV4 (first s) ∧ isV4 (last s)
    (v4r → ¬ v4s → r.compare s false = .ok .ipv4VsIpv6) ∧ (¬ v4r → v4s → r.compare s false = .ok .ipv6VsIpv4)
      ∧ ((v4r ↔ v4s) → r.compare s false = r.compare s true) := by
  intro v4r v4s
  have d1 := (defined_isDefined r).2 hr
  have d2 := (defined_isDefined s).2 hs
  have e1 : r.isEmpty = false := by rw [← Bool.not_eq_true, isEmpty_first_last hr]; omega
  have e2 : s.isEmpty = false := by rw [← Bool.not_eq_true, isEmpty_first_last hs]; omega
  have f1 := isIpv4_range hr
  have f2 := isIpv4_range hs
  refine ⟨fun g1 g2 => ?_, fun g1 g2 => ?_, fun g => ?_⟩
  · have k1 : r.isIpv4 = true := f1.2 g1
    have k2 : s.isIpv4 = false := by rw [← Bool.not_eq_true, f2]; exact g2
    unfold Range.compare
    rw [if_neg (by simp [d1, d2]), if_neg (by simp [e1]), if_neg (by simp [e2]), if_pos (by simp [k1, k2])]
  · have k1 : r.isIpv4 = false := by rw [← Bool.not_eq_true, f1]; exact g1
    have k2 : s.isIpv4 = true := f2.2 g2
    unfold Range.compare
    rw [if_neg (by simp [d1, d2]), if_neg (by simp [e1]), if_neg (by simp [e2]), if_neg (by simp [k1]),
      if_pos (by simp [k1, k2])]
  · have k : r.isIpv4 = s.isIpv4 := by rw [Bool.eq_iff_iff, f1, f2]; exact g
    have n1 : ∀ b : Bool, ¬ ((!b && r.isIpv4 && !s.isIpv4) = true) := by
      intro b; rw [k]; cases b <;> cases s.isIpv4 <;> simp
    have n2 : ∀ b : Bool, ¬ ((!b && !r.isIpv4 && s.isIpv4) = true) := by
      intro b; rw [k]; cases b <;> cases s.isIpv4 <;> simp
    unfold Range.compare
    rw [if_neg (n1 _), if_neg (n2 _), if_neg (n1 _), if_neg (n2 _)]

/-- C31: exchanging the operands exchanges the answer for its mirror image, for all ranges, defined or not, and the
function always answers (its assertion never fires). -/
theorem C31_compare_mirror (r s : Range) (mixed : Bool) :
    ∃ c, r.compare s mixed = .ok c ∧ s.compare r mixed = .ok (mirror c) := by
  by_cases hr : Defined r
  · by_cases hs : Defined s
    · rcases Nat.lt_or_ge (last r) (first r) with h1 | h1 <;> rcases Nat.lt_or_ge (last s) (first s) with h2 | h2
      · exact ⟨_, (C31_compare_degenerate r s mixed).2.1 hr hs h1 h2, (C31_compare_degenerate s r mixed).2.1 hs hr h2 h1⟩
      · exact ⟨_, (C31_compare_degenerate r s mixed).2.2.1 hr hs h1 h2, (C31_compare_degenerate s r mixed).2.2.2 hs hr h2 h1⟩
      · exact ⟨_, (C31_compare_degenerate r s mixed).2.2.2 hr hs h1 h2, (C31_compare_degenerate s r mixed).2.2.1 hs hr h2 h1⟩
      · have hmir : mirror (code (cmpNat (first r) (last r) (first s) (last s)))
            = code (cmpNat (first s) (last s) (first r) (last r)) := by
          generalize first r = a at *
          generalize last r = b at *
          generalize first s = c at *
          generalize last s = d at *
          unfold cmpNat
          repeat' split
          all_goals first | rfl | (exfalso; omega)
        have main : ∃ c, r.compare s true = .ok c ∧ s.compare r true = .ok (mirror c) :=
          ⟨_, compare_mixed hr hs h1 h2, by rw [compare_mixed hs hr h2 h1, hmir]⟩
        cases mixed
        · obtain ⟨a1, a2, a3⟩ := C31_compare_families r s hr hs h1 h2
          obtain ⟨b1, b2, b3⟩ := C31_compare_families s r hs hr h2 h1
          by_cases g1 : isV4 (first r) ∧ isV4 (last r) <;> by_cases g2 : isV4 (first s) ∧ isV4 (last s)
          · rw [a3 ⟨fun _ => g2, fun _ => g1⟩, b3 ⟨fun _ => g1, fun _ => g2⟩]; exact main
          · exact ⟨_, a1 g1 g2, b2 g2 g1⟩
          · exact ⟨_, a2 g1 g2, b1 g2 g1⟩
          · rw [a3 ⟨fun h => absurd h g1, fun h => absurd h g2⟩, b3 ⟨fun h => absurd h g2, fun h => absurd h g1⟩]; exact main
        · exact main
    · exact ⟨_, (C31_compare_degenerate r s mixed).1 (.inr hs), (C31_compare_degenerate s r mixed).1 (.inl hs)⟩
  · exact ⟨_, (C31_compare_degenerate r s mixed).1 (.inl hr), (C31_compare_degenerate s r mixed).1 (.inr hr)⟩

example : let r := sampleRange (sampleV4 10 0 0 0) (sampleV4 10 0 0 9)
    let s := sampleRange (sampleV4 10 0 0 5) (sampleV4 10 0 0 20)
    Defined r ∧ Defined s ∧ first r ≤ last r ∧ first s ≤ last s ∧ r.compare s true = .ok .overlapSmallVsLarge := by
  decide +kernel

/-! ## C32 -/

/-- C32, full statement. -/
def C32_claim : Prop := ∀ r s t : Range, r.lt s = .ok false → s.lt r = .ok false → s.lt t = .ok false → t.lt s = .ok false →
  r.lt t = .ok false ∧ t.lt r = .ok false

/-- C32 does not hold as stated: a range without bounds is not ordered with respect to any other, although these are
ordered between them. -/
theorem C32_claim_fails : ¬ C32_claim := by
  intro h
  have := (h (sampleRange (sampleV4 1 1 1 1) (sampleV4 1 1 1 1)) Range.default (sampleRange (sampleV4 2 2 2 2) (sampleV4 2 2 2 2))
    (by decide +kernel) (by decide +kernel) (by decide +kernel) (by decide +kernel)).1
  revert this
  decide +kernel

/-- What the order of two defined ranges is: empty ranges last, then by first address, the longer range first. -/
theorem C32_less_iff (r s : Range) (hr : Defined r) (hs : Defined s) :
    ∃ b, r.lt s = .ok b ∧ (b = true ↔
      first r ≤ last r ∧ (last s < first s ∨ first r < first s ∨ (first r = first s ∧ last s < last r))) := by
  rcases Nat.lt_or_ge (last r) (first r) with h1 | h1 <;> rcases Nat.lt_or_ge (last s) (first s) with h2 | h2
  · refine ⟨false, ?_, by simp; omega⟩
    rw [Range.lt, (C31_compare_degenerate r s true).2.1 hr hs h1 h2]
  · refine ⟨false, ?_, by simp; omega⟩
    rw [Range.lt, (C31_compare_degenerate r s true).2.2.1 hr hs h1 h2]
  · refine ⟨true, ?_, by simp; omega⟩
    rw [Range.lt, (C31_compare_degenerate r s true).2.2.2 hr hs h1 h2]
  · have hh := cmpNat_holds (first r) (last r) (first s) (last s)
    have hc := compare_mixed hr hs h1 h2
    generalize cmpNat (first r) (last r) (first s) (last s) = rel at hh hc
    cases rel <;> simp only [Rel.holds] at hh <;>
      first
      | (refine ⟨false, by rw [Range.lt, hc]; rfl, ?_⟩
         simp only [Bool.false_eq_true, false_iff]; omega)
      | (refine ⟨true, by rw [Range.lt, hc]; rfl, ?_⟩
         simp only [true_iff]; omega)

/-- C32, for defined ranges: the order is irreflexive, asymmetric, transitive, and being unordered is transitive too.
Missing from the full statement: the ranges without bounds, for which the last part is false. -/
theorem C32_strict_weak_order_partial (r s t : Range) (hr : Defined r) (hs : Defined s) (ht : Defined t) :
    r.lt r = .ok false
      ∧ (r.lt s = .ok true → s.lt r = .ok false)
      ∧ (r.lt s = .ok true → s.lt t = .ok true → r.lt t = .ok true)
      ∧ (r.lt s = .ok false → s.lt r = .ok false → s.lt t = .ok false → t.lt s = .ok false →
          r.lt t = .ok false ∧ t.lt r = .ok false) := by
  have key : ∀ x y : Range, Defined x → Defined y →
      (x.lt y = .ok true ↔
        first x ≤ last x ∧ (last y < first y ∨ first x < first y ∨ (first x = first y ∧ last y < last x)))
      ∧ (x.lt y = .ok false ↔
        ¬ (first x ≤ last x ∧ (last y < first y ∨ first x < first y ∨ (first x = first y ∧ last y < last x)))) := by
    intro x y hx hy
    obtain ⟨b, h1, h2⟩ := C32_less_iff x y hx hy
    rw [h1, Res.ok.injEq, Res.ok.injEq, ← h2]
    cases b <;> simp
  rw [(key r r hr hr).2, (key r s hr hs).1, (key s r hs hr).2, (key s t hs ht).1, (key r t hr ht).1, (key r s hr hs).2,
    (key s t hs ht).2, (key t s ht hs).2, (key r t hr ht).2, (key t r ht hr).2]
  generalize first r = a
  generalize last r = b
  generalize first s = c
  generalize last s = d
  generalize first t = e
  generalize last t = f
  refine ⟨?_, ?_, ?_, ?_⟩
  · omega
  · omega
  · omega
  · intro h1 h2 h3 h4
    constructor <;> omega

example : (sampleRange (sampleV4 10 0 0 0) (sampleV4 10 0 0 9)).lt (sampleRange (sampleV4 10 0 0 0) (sampleV4 10 0 0 5)) = .ok true
    ∧ (sampleRange (sampleV4 10 0 0 0) (sampleV4 10 0 0 9)).lt (sampleRange (sampleV4 1 0 0 5) (sampleV4 1 0 0 4)) = .ok true := by
  decide +kernel

end Verif
