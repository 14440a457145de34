import Verif.Props.RangeEnum
import Verif.Props.NetworkAlgebra

/-!
# Property C122: listing the addresses of networks
-/

namespace Verif

open Spec

/-- The addresses listed are those which the range matches. -/
def ListsMatches (r : Range) (v : List Addr) : Prop :=
  ∀ a : Addr, (∃ b ∈ v, ip b.getIpv6.addr = ip a.getIpv6.addr) ↔ r.matchAddr a = .ok true

/-- The range has one bound, which is `x`. -/
def OneBound (r : Range) (x : Addr) : Prop :=
  (r.hasFrom = true ∧ r.hasTo = false ∧ r.lo = x) ∨ (r.hasFrom = false ∧ r.hasTo = true ∧ r.hi = x)

/-- `s` is what the caller of `parse()` gets who turns the networks into ranges with `from_cidr()` and leaves the rest as it is. -/
def Expands (r s : Range) : Prop :=
  if r.isRange = true then s = r else Range.fromCidr r.lo = .ok s

/-! ### Lemmas -/

theorem oneBound_match {r : Range} {x : Addr} (h : OneBound r x) (a : Addr) : r.matchAddr a = .ok (x.matchAddr a) := by
  rcases h with ⟨h1, h2, h3⟩ | ⟨h1, h2, h3⟩ <;> subst h3 <;>
    simp [Range.matchAddr, Range.isEmpty, Range.isRange, h1, h2]

theorem oneBound_incomplete {r : Range} {x : Addr} (h : OneBound r x) : ¬ Complete r := by
  unfold Complete
  rcases h with ⟨h1, h2, h3⟩ | ⟨h1, h2, h3⟩ <;> simp [h1, h2]

/-- Every number below `2^128` is an address. -/
theorem exists_address (n : Nat) (h : n < 2 ^ 128) : ∃ a : Addr, ip a.getIpv6.addr = n :=
  ⟨Addr.default.ipFromUint128 (BitVec.ofNat 128 n), by
    have := ip_fromUint Addr.default (BitVec.ofNat 128 n)
    rw [BitVec.toNat_ofNat, Nat.mod_eq_of_lt h] at this
    exact this⟩

theorem full_mask_bits (x : Addr) : x.getMaskSize = 128 ↔ ∀ i, i < 128 → (ip x.getMask).testBit i = true := by
  rw [show (128 : Int) = ((128 : Nat) : Int) from rfl, C09_mask_size_iff x 128 (by omega)]
  constructor
  · intro h i hi
    rw [h, C09_prefixMask_bits 128 i (by omega)]
    simpa using hi
  · intro h
    refine Nat.eq_of_testBit_eq fun i => ?_
    rw [C09_prefixMask_bits 128 i (by omega)]
    by_cases hi : i < 128
    · rw [h i hi]
      simp [hi]
    · have : ip x.getMask < 2 ^ i := Nat.lt_of_lt_of_le (ip_lt _) (Nat.pow_le_pow_right (by omega) (by omega))
      rw [Nat.testBit_lt_two_pow this]
      simp [hi]

/-! ### C122 -/

/-- C122, full statement: the addresses listed for what `parse()` reads are those which are matched. -/
def C122_claim : Prop :=
  ∀ (env : ParseEnv) (p : Parser) (inp : Str) (l : List Range), (Parser.parse env inp p).2 = .ok l →
    ∀ (limit fuel : Nat) (v : List Addr), Range.toAddressesAll l limit fuel = some (.ok v) →
      ∀ a : Addr, (∃ b ∈ v, ip b.getIpv6.addr = ip a.getIpv6.addr) ↔ addressMatchRanges l a = .ok true

/-- C122: `10.0.0.0/30` matches 10.0.0.1, which is not listed. -/
theorem C122_claim_fails : ¬ C122_claim := by
  intro h
  have e : (match (Parser.parse sampleEnv "10.0.0.0/30".toList accessParser).2 with
      | .ok l => decide (addressMatchRanges l (sampleV4 10 0 0 1) = .ok true)
        && (match Range.toAddressesAll l 1000 1000 with
          | some (.ok v) => v.all fun b => !decide (ip b.getIpv6.addr = ip (sampleV4 10 0 0 1).getIpv6.addr)
          | _ => false)
      | _ => false) = true := by decide +kernel
  split at e
  · rename_i l hl
    rw [Bool.and_eq_true, decide_eq_true_iff] at e
    obtain ⟨h1, h2⟩ := e
    split at h2
    · rename_i v hv
      obtain ⟨b, h3, h4⟩ := (h sampleEnv accessParser _ l hl 1000 1000 v hv (sampleV4 10 0 0 1)).2 h1
      have := List.all_eq_true.1 h2 b h3
      simp [h4] at this
    · cases h2
  · cases e

/-- C122: of a range with one bound this bound is listed, its size is 1, and the bound is all it matches exactly when the mask is full. -/
theorem C122_single (r : Range) (x : Addr) (h : OneBound r x) (limit fuel : Nat) (hl : 1 ≤ limit) :
    r.size = .ok 1 ∧ r.toAddresses limit fuel = some (.ok [x]) ∧ (ListsMatches r [x] ↔ x.getMaskSize = 128) := by
  have hi := oneBound_incomplete h
  refine ⟨?_, ?_, ?_⟩
  · rw [C25_size_incomplete r hi, if_pos]
    unfold Defined
    rcases h with ⟨h1, h2, h3⟩ | ⟨h1, h2, h3⟩ <;> simp [h1, h2]
  · rw [C26_incomplete r limit fuel hi hl]
    rcases h with ⟨h1, h2, rfl⟩ | ⟨h1, h2, rfl⟩ <;> simp [h1, h2]
  · rw [full_mask_bits]
    unfold ListsMatches
    constructor
    · intro hm i hi
      refine Classical.byContradiction fun hb => ?_
      have hlt : ip x.getIpv6.addr ^^^ 2 ^ i < 2 ^ 128 :=
        Nat.xor_lt_two_pow (ip_lt _) (Nat.pow_lt_pow_right (by omega) hi)
      obtain ⟨y, hy⟩ := exists_address _ hlt
      have hmatch : r.matchAddr y = .ok true := by
        rw [oneBound_match h, (C11_match_bits x y).2]
        intro j _ hj
        rw [hy, Nat.testBit_xor, Nat.testBit_two_pow]
        have : i ≠ j := by
          rintro rfl
          exact hb hj
        simp [this]
      obtain ⟨b, hb1, hb2⟩ := (hm y).2 hmatch
      rw [List.mem_singleton] at hb1
      subst hb1
      have := congrArg (fun n => n.testBit i) (hb2.trans hy)
      simp [Nat.testBit_xor, Nat.testBit_two_pow] at this
    · intro hm a
      rw [oneBound_match h]
      have e : (Res.ok (x.matchAddr a) = Res.ok true) ↔ x.matchAddr a = true := ⟨(fun h => Res.ok.inj h), (fun h => by rw [h])⟩
      rw [e, C11_match_bits]
      simp only [List.mem_singleton, exists_eq_left]
      constructor
      · intro he i _ _
        rw [he]
      · intro hb
        refine Nat.eq_of_testBit_eq fun i => ?_
        by_cases hi : i < 128
        · exact hb i hi (hm i hi)
        · have hp : 2 ^ 128 ≤ 2 ^ i := Nat.pow_le_pow_right (by omega) (by omega)
          rw [Nat.testBit_lt_two_pow (Nat.lt_of_lt_of_le (ip_lt _) hp), Nat.testBit_lt_two_pow (Nat.lt_of_lt_of_le (ip_lt _) hp)]

/-- 10.0.0.0/30 as `parse()` gives it. -/
def quadNetwork : Addr := ((sampleV4 10 0 0 0).setMask ⟨(Addr.fillMask 16 126).toArray, by simp [Addr.fillMask_length]⟩).1

theorem quadNetwork_bits : HasBits quadNetwork 126 := by unfold HasBits; decide +kernel

example : ∃ v, Range.toAddresses { Range.default with hasFrom := true, lo := quadNetwork } 1000 7 = some (.ok v)
    ∧ ¬ ListsMatches { Range.default with hasFrom := true, lo := quadNetwork } v := by
  obtain ⟨_, h1, h2⟩ := C122_single { Range.default with hasFrom := true, lo := quadNetwork } quadNetwork (.inl ⟨rfl, rfl, rfl⟩) 1000 7
    (by omega)
  exact ⟨_, h1, fun h => absurd (h2.1 h) (by decide +kernel)⟩

/-- C122: of a range with two bounds the addresses it matches are listed, in increasing order and once each, whatever the masks are. -/
theorem C122_range (r : Range) (h : Complete r) (hL : Listable r) (limit fuel : Nat) (hl : limit < 2 ^ 64 - 1)
    (hc : count (fromIp r) (toIp r) ≤ limit) (hf : limit ≤ fuel) :
    ∃ v, r.toAddresses limit fuel = some (.ok v) ∧ ListsMatches r v ∧ (v.map fun a => ip a.getIpv6.addr).Pairwise (· < ·) := by
  obtain ⟨h1, h2, h3⟩ := hL h
  obtain ⟨v, h4, h5, _⟩ := (C26_enumerates_partial r limit h h1 h2 h3 hl).2 hc fuel (by omega)
  refine ⟨v, h4, fun a => ?_, ?_⟩
  · obtain ⟨b, h6, h7⟩ := C24_match_complete r a h
    have e2 : (Res.ok b = Res.ok true) ↔ b = true := ⟨(fun h => by cases h; rfl), (fun h => by rw [h])⟩
    have e : (∃ b ∈ v, ip b.getIpv6.addr = ip a.getIpv6.addr) ↔ ip a.getIpv6.addr ∈ v.map fun a => ip a.getIpv6.addr := by
      rw [List.mem_map]
    rw [h6, e2, h7, e, h5, List.mem_range'_1]
    unfold between count
    omega
  · rw [h5]
    exact List.pairwise_lt_range'

/-- C122: the network `a/n` turned into a range with `from_cidr()` matches what the address with its mask matches. It holds `2^(128-n)`
addresses; when these are at most the limit and the network does not end with the largest address, they are listed. -/
theorem C122_network (a : Addr) (n : Nat) (h : HasBits a n) (r : Range) (hr : Range.fromCidr a = .ok r) (limit fuel : Nat)
    (hl : limit < 2 ^ 64 - 1) (hf : limit ≤ fuel) (hlast : blockLast (ip a.getIpv6.addr) n < maxIp) :
    (∀ x : Addr, r.matchAddr x = .ok true ↔ a.matchAddr x = true)
      ∧ (2 ^ (128 - n) ≤ limit → ∃ v, r.toAddresses limit fuel = some (.ok v) ∧ v.length = 2 ^ (128 - n)
          ∧ (∀ x : Addr, (∃ b ∈ v, ip b.getIpv6.addr = ip x.getIpv6.addr) ↔ a.matchAddr x = true)
          ∧ ∀ b ∈ v, SameButIp r.lo b)
      ∧ (limit < 2 ^ (128 - n) → n ≠ 1 → r.toAddresses limit fuel = some (.throw .outOfRange)) := by
  obtain ⟨h1, h2, h3⟩ := cidr_range h hr
  have hc : count (fromIp r) (toIp r) = 2 ^ (128 - n) := by
    rw [h2, h3]
    unfold count blockFirst blockLast
    have := Nat.two_pow_pos (128 - n)
    omega
  have hle : fromIp r ≤ toIp r := by
    have := Nat.two_pow_pos (128 - n)
    unfold count at hc
    omega
  have hm : ∀ x : Addr, r.matchAddr x = .ok true ↔ a.matchAddr x = true := by
    intro x
    obtain ⟨b, h6, h7⟩ := C24_match_complete r x h1
    have e2 : (Res.ok b = Res.ok true) ↔ b = true := ⟨(fun h => by cases h; rfl), (fun h => by rw [h])⟩
    have hn := (C09_mask_size_iff a n h.1).2 h.2
    obtain ⟨g1, g2⟩ := C10_apply_mask_block a n hn
    rw [h6, e2, h7, C11_match_block a x n hn, g1, g2, h2, h3]
    rfl
  have h127 : n ≠ 1 → count (fromIp r) (toIp r) ≠ 2 ^ 127 := by
    intro hn he
    rw [hc] at he
    have := Nat.pow_right_injective (Nat.le_refl 2) he
    have := h.1
    omega
  refine ⟨hm, fun hlim => ?_, fun hlim hn => ?_⟩
  · have hn : n ≠ 1 := by
      rintro rfl
      have : (2 : Nat) ^ 127 < 2 ^ 64 - 1 := by omega
      exact absurd this (by decide)
    obtain ⟨v, g1, g2, g3⟩ := (C26_enumerates_partial r limit h1 hle (by rw [h3]; exact hlast) (h127 hn) hl).2 (by omega) fuel (by omega)
    refine ⟨v, g1, ?_, fun x => ?_, g3⟩
    · have := congrArg List.length g2
      rw [List.length_map, List.length_range', hc] at this
      exact this
    · obtain ⟨w, k1, k2, _⟩ := C122_range r h1 (fun _ => ⟨hle, by rw [h3]; exact hlast, h127 hn⟩) limit fuel hl (by omega) hf
      rw [g1] at k1
      cases k1
      exact (k2 x).trans (hm x)
  · exact (C26_enumerates_partial r limit h1 hle (by rw [h3]; exact hlast) (h127 hn) hl).1 (by omega) fuel

example : ∃ r v, Range.fromCidr quadNetwork = .ok r ∧ r.toAddresses 1000 1000 = some (.ok v) ∧ v.length = 4 := by
  obtain ⟨r, _, hr, _⟩ := C27_cidr_roundtrip quadNetwork Addr.default 126 quadNetwork_bits.1 quadNetwork_bits.2
  obtain ⟨v, h1, h2, _⟩ := (C122_network quadNetwork 126 quadNetwork_bits r hr 1000 1000 (by omega) (by omega) (by decide +kernel)).2.1
    (by omega)
  exact ⟨r, v, hr, h1, h2⟩

/-- C122: a network can always be turned into a range. -/
theorem C122_expands (r : Range) (hn : r.isRange = false → ∃ n, HasBits r.lo n) : ∃ s, Expands r s := by
  unfold Expands
  by_cases hr : r.isRange = true
  · exact ⟨r, by rw [if_pos hr]⟩
  · obtain ⟨n, h⟩ := hn (by simpa using hr)
    obtain ⟨s, _, hs, _⟩ := C27_cidr_roundtrip r.lo Addr.default n h.1 h.2
    exact ⟨s, by rw [if_neg hr]; exact hs⟩

theorem expands_match {r s : Range} (h : Expands r s) (hn : r.isRange = false → r.hasFrom = true ∧ ∃ n, HasBits r.lo n) (x : Addr) :
    Complete s ∧ (s.matchAddr x = .ok true ↔ r.matchAddr x = .ok true) := by
  unfold Expands at h
  by_cases hr : r.isRange = true
  · rw [if_pos hr] at h
    subst h
    exact ⟨(complete_isRange s).1 hr, Iff.rfl⟩
  · rw [if_neg hr] at h
    obtain ⟨h1, n, h2⟩ := hn (by simpa using hr)
    obtain ⟨h3, h4, h5⟩ := cidr_range h2 h
    refine ⟨h3, ?_⟩
    have ht : r.hasTo = false := by
      cases ht : r.hasTo
      · rfl
      · exact absurd ((complete_isRange r).2 ⟨h1, ht⟩) hr
    obtain ⟨b, h6, h7⟩ := C24_match_complete s x h3
    have e2 : (Res.ok b = Res.ok true) ↔ b = true := ⟨(fun h => by cases h; rfl), (fun h => by rw [h])⟩
    have hk := (C09_mask_size_iff r.lo n h2.1).2 h2.2
    obtain ⟨g1, g2⟩ := C10_apply_mask_block r.lo n hk
    have e3 : (r.matchAddr x = .ok true) ↔ r.lo.matchAddr x = true := by
      rw [oneBound_match (.inl ⟨h1, ht, rfl⟩)]
      exact ⟨(fun h => Res.ok.inj h), (fun h => by rw [h])⟩
    rw [h6, e2, h7, e3, C11_match_block r.lo x n hk, g1, g2, h4, h5]
    rfl

/-- C122: the networks of a list turned into ranges with `from_cidr()`: the addresses then listed are those which the list matches. -/
theorem C122_list (l m : List Range) (he : List.Forall₂ Expands l m)
    (hn : ∀ r ∈ l, r.isRange = false → r.hasFrom = true ∧ ∃ n, HasBits r.lo n) (hL : ∀ s ∈ m, Listable s) (limit fuel : Nat)
    (hl : limit < 2 ^ 64 - 1) (hlen : l.length * limit < 2 ^ 64) (hf : limit ≤ fuel) :
    (limit < total m → Range.toAddressesAll m limit fuel = some (.throw .outOfRange))
      ∧ (total m ≤ limit → ∃ v, Range.toAddressesAll m limit fuel = some (.ok v)
          ∧ ∀ a : Addr, (∃ b ∈ v, ip b.getIpv6.addr = ip a.getIpv6.addr) ↔ addressMatchRanges l a = .ok true) := by
  obtain ⟨h1, h2⟩ := C99_list_partial m limit hL hl (by rw [← he.length_eq]; exact hlen) fuel hf
  refine ⟨h1, fun ht => ?_⟩
  obtain ⟨v, h3, h4⟩ := h2 ht
  refine ⟨v, h3, fun a => ?_⟩
  obtain ⟨b, h5, h6⟩ := C35_any_range l a
  have e2 : (Res.ok b = Res.ok true) ↔ b = true := ⟨(fun h => by cases h; rfl), (fun h => by rw [h])⟩
  have e : (∃ b ∈ v, ip b.getIpv6.addr = ip a.getIpv6.addr) ↔ ip a.getIpv6.addr ∈ v.map fun a => ip a.getIpv6.addr := by
    rw [List.mem_map]
  rw [h5, e2, h6, e, h4, List.mem_flatMap]
  clear e e2 h6 h5 h4 h3 h2 h1 ht hlen hL
  induction he with
  | nil => simp
  | @cons r s l m hrs _ ih =>
    obtain ⟨g1, g2⟩ := expands_match hrs (hn r List.mem_cons_self) a
    have ih' := ih fun x hx => hn x (List.mem_cons_of_mem _ hx)
    obtain ⟨c, g3, g4⟩ := C24_match_complete s a g1
    have e3 : ip a.getIpv6.addr ∈ numbersOf s ↔ r.matchAddr a = .ok true := by
      have e2 : (Res.ok c = Res.ok true) ↔ c = true := ⟨(fun h => by cases h; rfl), (fun h => by rw [h])⟩
      rw [← g2, g3, e2, g4, mem_numbersOf (.inl g1.1), first_of_complete g1, last_of_complete g1]
    constructor
    · rintro ⟨x, hx, hm⟩
      rcases List.mem_cons.1 hx with rfl | hx
      · exact ⟨r, List.mem_cons_self, e3.1 hm⟩
      · obtain ⟨y, hy, hm'⟩ := ih'.1 ⟨x, hx, hm⟩
        exact ⟨y, List.mem_cons_of_mem _ hy, hm'⟩
    · rintro ⟨x, hx, hm⟩
      rcases List.mem_cons.1 hx with rfl | hx
      · exact ⟨s, List.mem_cons_self, e3.2 hm⟩
      · obtain ⟨y, hy, hm'⟩ := ih'.2 ⟨x, hx, hm⟩
        exact ⟨y, List.mem_cons_of_mem _ hy, hm'⟩

/-- C122_list on 10.0.0.0/30 followed by a range. -/
example : ∃ m v, List.Forall₂ Expands [{ Range.default with hasFrom := true, lo := quadNetwork }, sampleRange (sampleV4 1 2 3 4) (sampleV4 1 2 3 6)] m
    ∧ Range.toAddressesAll m 1000 1000 = some (.ok v) ∧ (∃ b ∈ v, ip b.getIpv6.addr = ip (sampleV4 10 0 0 3).getIpv6.addr) := by
  have hx : Expands (sampleRange (sampleV4 1 2 3 4) (sampleV4 1 2 3 6)) (sampleRange (sampleV4 1 2 3 4) (sampleV4 1 2 3 6)) := by
    unfold Expands
    rw [if_pos (by decide)]
  obtain ⟨r, _, hr, _⟩ := C27_cidr_roundtrip quadNetwork Addr.default 126 quadNetwork_bits.1 quadNetwork_bits.2
  have hq : Expands { Range.default with hasFrom := true, lo := quadNetwork } r := by
    unfold Expands
    rw [if_neg (by decide)]
    exact hr
  obtain ⟨hc, h1, h2⟩ := cidr_range quadNetwork_bits hr
  have e1 : fromIp r = 0xFFFF0A000000 := by rw [h1]; decide +kernel
  have e2 : toIp r = 0xFFFF0A000003 := by rw [h2]; decide +kernel
  have hlist : ∀ s ∈ [r, sampleRange (sampleV4 1 2 3 4) (sampleV4 1 2 3 6)], Listable s := by
    intro s hs
    rcases List.mem_cons.1 hs with rfl | hs
    · intro _
      rw [e1, e2]
      decide
    · rw [List.mem_singleton.1 hs]
      decide
  have ht : total [r, sampleRange (sampleV4 1 2 3 4) (sampleV4 1 2 3 6)] = 7 := by
    simp only [total, List.map_cons, List.map_nil, List.sum_cons, List.sum_nil]
    rw [numbersOf_complete hc, List.length_range', e1, e2]
    decide +kernel
  obtain ⟨v, g1, g2⟩ := (C122_list _ _ (.cons hq (.cons hx .nil)) (by
    intro s hs h
    rcases List.mem_cons.1 hs with rfl | hs
    · exact ⟨rfl, 126, quadNetwork_bits⟩
    · rw [List.mem_singleton.1 hs] at h
      exact absurd h (by decide)) hlist 1000 1000 (by omega) (by decide) (by omega)).2 (by omega)
  exact ⟨_, v, .cons hq (.cons hx .nil), g1, (g2 _).2 (by decide +kernel)⟩

end Verif
