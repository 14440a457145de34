import Verif.Props.ParserSort

/-! What each flag of the sort order asks for (C43), by the bits of addr_parser.h:72-77. -/

namespace Verif

open Spec

/-- The bit `k` of the sort order is set. -/
def SortBit (p : Parser) (k : Nat) : Prop := p.config.sort.getLsbD k = true

theorem and_bit (x : BitVec 64) (k : Nat) (hk : k < 64) : x &&& BitVec.twoPow 64 k ≠ 0 ↔ x.getLsbD k = true := by
  rw [BitVec.and_twoPow]
  split
  · next h =>
    refine ⟨fun _ => h, fun _ h0 => ?_⟩
    have := congrArg (fun y => BitVec.getLsbD y k) h0
    simp [BitVec.getLsbD_twoPow, hk] at this
  · next h => exact ⟨fun h0 => absurd rfl h0, fun h0 => absurd h0 h⟩

/-- C43: the five flags are five bits of their own, and these are the bits which count in the theorems about the sort order. -/
theorem C43_flags (p : Parser) :
    (p.config.sort &&& SORT_IPV6_FIRST ≠ 0 ↔ SortBit p 0) ∧ (p.config.sort &&& SORT_IPV4_FIRST ≠ 0 ↔ SortBit p 1)
      ∧ (p.config.sort &&& SORT_FULL ≠ 0 ↔ SortBit p 2) ∧ (p.config.sort &&& SORT_MERGE ≠ 0 ↔ SortBit p 3)
      ∧ (p.config.sort &&& SORT_NO_EMPTY ≠ 0 ↔ SortBit p 4) :=
  ⟨and_bit _ 0 (by decide), and_bit _ 1 (by decide), and_bit _ 2 (by decide), and_bit _ 3 (by decide), and_bit _ 4 (by decide)⟩

/-- C43: a parser whose order is `SORT_FULL`, on its own or with `SORT_NO_EMPTY`, sorts and does not merge: it returns the ranges of the
parser which keeps the order of the input, as a permutation, in the order of `SORT_FULL`. -/
theorem C43_full_alone (env : ParseEnv) (inp : Str) (p : Parser) (hs : p.config.sort = 0x4 ∨ p.config.sort = 0x14) (l : List Range)
    (hl : (Parser.parse env inp (withSort p (p.config.sort &&& 0x10))).2 = .ok l) :
    ∃ l', (Parser.parse env inp p).2 = .ok l' ∧ l'.Perm l ∧ l'.Pairwise FullOrder := by
  obtain ⟨l', h1, h2, _, h3, _⟩ := C43_sort_permutes env inp p (by rcases hs with h | h <;> rw [h] <;> decide) l hl
  have hg (r : Range) : group p.config.sort r = 0 := by
    rw [group, if_pos (by rcases hs with h | h <;> rw [h] <;> decide)]
  exact ⟨l', h1, h2, (h3 (by rcases hs with h | h <;> rw [h] <;> decide)).imp fun h => h (by rw [hg, hg])⟩

/-- The kind of a range, from 0 to 2: `first4` says that the IPv4 ranges are first, otherwise they are after the other ones. The empty
ranges are last. -/
def kindOf (first4 : Bool) (r : Range) : Nat :=
  if last r < first r then 2 else if (decide (isV4 (first r)) && decide (isV4 (last r))) = first4 then 0 else 1

/-- C43: a parser whose order is `SORT_IPV6_FIRST` (1) or `SORT_IPV4_FIRST` (2), on its own or with `SORT_NO_EMPTY`, only separates
the kinds: in each of them the ranges are in the order of the input. -/
theorem C43_family_alone (env : ParseEnv) (inp : Str) (p : Parser) (first4 : Bool)
    (hs : p.config.sort = (if first4 then 0x2 else 0x1) ∨ p.config.sort = (if first4 then 0x12 else 0x11)) (l : List Range)
    (hl : (Parser.parse env inp (withSort p (p.config.sort &&& 0x10))).2 = .ok l) :
    ∃ l', (Parser.parse env inp p).2 = .ok l' ∧ l'.Perm l ∧ (l'.Pairwise fun a b => kindOf first4 a ≤ kindOf first4 b)
      ∧ ∀ k, l'.filter (fun r => decide (kindOf first4 r = k)) = l.filter (fun r => decide (kindOf first4 r = k)) := by
  obtain ⟨l', h1, h2, h3, _, h4, _⟩ := C43_sort_permutes env inp p (by cases first4 <;> rcases hs with h | h <;> rw [h] <;> decide) l hl
  have h5 := h4 (by cases first4 <;> rcases hs with h | h <;> rw [h] <;> decide)
  have hg : group p.config.sort = kindOf first4 := by
    funext r
    have h6 : p.config.sort &&& SORT_IPV4_FIRST ≠ 0 ↔ first4 = true := by
      cases first4 <;> rcases hs with h | h <;> rw [h] <;> decide
    rw [group, kindOf, if_neg (by cases first4 <;> rcases hs with h | h <;> rw [h] <;> decide)]
    simp only [h6]
    by_cases ha : isV4 (first r) <;> by_cases hb : isV4 (last r) <;> cases first4 <;> simp [ha, hb]
  rw [hg] at h3 h5
  exact ⟨l', h1, h2, h3, h5⟩

/-- The parser of the sample with `SORT_FULL` and with `SORT_IPV4_FIRST`: both can be asked for alone. -/
example : (withSort sampleParser SORT_FULL).config.sort = 0x4 ∧ (withSort sampleParser SORT_IPV4_FIRST).config.sort = 0x2
    ∧ ¬ SortBit (withSort sampleParser SORT_FULL) 3 := by
  refine ⟨by decide, by decide, ?_⟩
  unfold SortBit
  decide

end Verif
