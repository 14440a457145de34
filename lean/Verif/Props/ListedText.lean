import Verif.Props.AccessMergeText
import Verif.Props.RangeEnum
import Verif.Props.NormalForm

/-! C151: from the text of a list to the addresses which `to_addresses()` lists (addr_parser.cpp:1037-1201, addr_range.cpp:441-500). -/

namespace Verif

open Spec

/-- The numbers which an entry names, in increasing order. -/
def numbersIn (q : AccessItem) : List Nat := List.range' q.lo (count q.lo q.hi)

/-- How many numbers the entries name together, those which several of them name counted as often. -/
def namedBy (Q : List AccessItem) : Nat := (Q.map fun q => count q.lo q.hi).sum

/-! ### Lemmas -/

theorem item_defined {r : Range} {q : AccessItem} (h : IsItem r q) (hd : Defined r) : numbersOf r = numbersIn q := by
  rw [numbersOf, if_pos hd, numbersIn, h.lo, h.hi]

theorem items_numbers {l : List Range} {Q : List AccessItem} (h : List.Forall₂ IsItem l Q) (hd : ∀ r ∈ l, Defined r) :
    l.flatMap numbersOf = Q.flatMap numbersIn ∧ total l = namedBy Q := by
  induction h with
  | nil => exact ⟨rfl, rfl⟩
  | @cons r q l Q hr _ ih =>
    obtain ⟨h1, h2⟩ := ih fun r' hr' => hd r' (List.mem_cons_of_mem _ hr')
    have h3 := item_defined hr (hd r List.mem_cons_self)
    refine ⟨by rw [List.flatMap_cons, List.flatMap_cons, h3, h1], ?_⟩
    rw [total_cons, h3, h2, numbersIn, List.length_range']
    rfl

theorem item_listable {r : Range} {q : AccessItem} (h : IsItem r q) (hle : q.lo ≤ q.hi)
    (hs : q.span = true → q.hi < maxIp ∧ count q.lo q.hi ≠ 2 ^ 127) : Listable r := by
  intro hc
  have hr : q.span = true := by rw [← h.span, Range.isRange, hc.1, hc.2]; rfl
  obtain ⟨h1, h2⟩ := hs hr
  have e1 := h.lo
  have e2 := h.hi
  rw [first_of_complete hc] at e1
  rw [last_of_complete hc] at e2
  rw [e1, e2]
  exact ⟨hle, h1, h2⟩

theorem total_perm {l l' : List Range} (h : l.Perm l') : total l = total l' := by
  induction h with
  | nil => rfl
  | cons r _ ih => rw [total_cons, total_cons, ih]
  | swap a b l =>
    simp only [total_cons]
    omega
  | trans _ _ h1 h2 => exact h1.trans h2

theorem length_le_total : ∀ l : List Range, (∀ r ∈ l, Defined r) → (∀ r ∈ l, first r ≤ last r) → l.length ≤ total l
  | [], _, _ => Nat.zero_le _
  | r :: l, hd, hne => by
    have g1 := length_le_total l (fun r' hr => hd r' (List.mem_cons_of_mem _ hr)) fun r' hr => hne r' (List.mem_cons_of_mem _ hr)
    have g2 := hne r List.mem_cons_self
    have g3 : 1 ≤ (numbersOf r).length := by
      rw [numbersOf, if_pos (hd r List.mem_cons_self), List.length_range', count]
      omega
    rw [total_cons, List.length_cons]
    omega

/-! ### C151 -/

/-- C151, the full claim: of a list of addresses and ranges, `to_addresses()` lists the numbers written, in the order of the entries, or
throws `out_of_range` when there are more than the limit. It fails for ranges which end with the largest address. -/
def C151_claim : Prop :=
  ∀ (env : ParseEnv) (p : Parser) (inp : Str) (Q : List AccessItem) (limit : Nat), ReadsAccess p → Unsorted p → WritesItems p inp Q →
    limit < 2 ^ 64 - 1 → ∃ l, (Parser.parse env inp p).2 = .ok l
      ∧ (limit < namedBy Q → ∃ fuel, Range.toAddressesAll l limit fuel = some (.throw .outOfRange))
      ∧ (namedBy Q ≤ limit → ∃ fuel v, Range.toAddressesAll l limit fuel = some (.ok v)
          ∧ v.map (fun a => ip a.getIpv6.addr) = Q.flatMap numbersIn)

/-- C151 for a parser which does not merge. Missing from the full claim: the ranges which end with the largest address or hold `2^127`
addresses, and the lists with so many entries that their number times the limit is not a `size_t`. A network stands for the number which is
written, as C122 says. -/
theorem C151_list_partial (env : ParseEnv) (p : Parser) (inp : Str) (Q : List AccessItem) (limit fuel : Nat) (h : ReadsAccess p)
    (hm : p.config.sort &&& SORT_MERGE = 0) (hq : WritesItems p inp Q)
    (hs : ∀ q ∈ Q, q.span = true → q.hi < maxIp ∧ count q.lo q.hi ≠ 2 ^ 127)
    (hl : limit < 2 ^ 64 - 1) (hn : Q.length * limit < 2 ^ 64) (hf : limit ≤ fuel) :
    ∃ l, (Parser.parse env inp p).2 = .ok l
      ∧ (limit < namedBy Q → Range.toAddressesAll l limit fuel = some (.throw .outOfRange))
      ∧ (namedBy Q ≤ limit → ∃ v, Range.toAddressesAll l limit fuel = some (.ok v)
          ∧ (v.map fun a => ip a.getIpv6.addr).Perm (Q.flatMap numbersIn)
          ∧ (Unsorted p → v.map (fun a => ip a.getIpv6.addr) = Q.flatMap numbersIn)) := by
  obtain ⟨l, h1, h2⟩ := items_read env h hq
  have hord := items_order hq
  obtain ⟨_, _, _, _, e5⟩ := parse_sort env inp p
  rw [h1] at e5
  obtain ⟨hd, hsort⟩ := e5 l rfl
  obtain ⟨l', h3, h4, _⟩ := C43_sort_permutes env inp p hm l (by rw [h1])
  obtain ⟨k1, k2⟩ := items_numbers h2 hd
  have hlist : ∀ r ∈ l', Listable r := fun r hr => by
    obtain ⟨q, hqQ, hi⟩ := items_left h2 r (h4.mem_iff.1 hr)
    exact item_listable hi (hord q hqQ).1 (hs q hqQ)
  obtain ⟨g1, g2⟩ := C99_list_partial l' limit hlist hl (by rw [h4.length_eq, h2.length_eq]; exact hn) fuel hf
  rw [total_perm h4, k2] at g1 g2
  refine ⟨l', h3, g1, fun hle => ?_⟩
  obtain ⟨v, g3, g4⟩ := g2 hle
  refine ⟨v, g3, ?_, fun hu => ?_⟩
  · rw [g4, ← k1]
    exact h4.flatMap_right _
  · rw [g4, ← k1]
    have : l' = l := by
      have e : Parser.sortResult p.config.sort l = .ok l := sortResult_unsorted _ hu l
      rw [hsort, e] at h3
      exact (Res.ok.inj h3).symm
    rw [this]

/-- C151 for one range with two bounds and a port: each address listed has the port which is written. -/
theorem C151_range (env : ParseEnv) (p : Parser) (inp t u q : Str) (n m port limit fuel : Nat) (h : ReadsRange p inp) (ht : Trims inp t)
    (he : Entry (PortsAllowed p) t u q) (hr : WrittenRange u (some n) (some m)) (hq : PortOf env p.config q port) (hle : n ≤ m)
    (hmax : m < maxIp) (h127 : count n m ≠ 2 ^ 127) (hl : limit < 2 ^ 64 - 1) (hf : limit ≤ fuel) :
    ∃ r, Parser.parse env inp p = (p, .ok [r])
      ∧ (limit < count n m → r.toAddresses limit fuel = some (.throw .outOfRange))
      ∧ (count n m ≤ limit → ∃ v, r.toAddresses limit fuel = some (.ok v)
          ∧ v.map (fun a => ip a.getIpv6.addr) = List.range' n (count n m)
          ∧ ∀ a ∈ v, a.getPort = port ∧ (a.portDefined = true ↔ q ≠ []) ∧ ip a.getMask = 2 ^ 128 - 1) := by
  obtain ⟨r, h1, ⟨a1, a2, a3, a4, a5⟩, ⟨b1, b2, _⟩⟩ := (C86_accepted env p inp t u q _ _ port h ht he hr hq).1 (by
    rintro ⟨_, n', m', h1, h2, h3⟩
    cases h1
    cases h2
    omega)
  refine ⟨r, h1, ?_⟩
  have e1 : fromIp r = n := a2
  have e2 : toIp r = m := b2
  obtain ⟨g1, g2⟩ := C26_enumerates_partial r limit ⟨a1, b1⟩ (by omega) (by omega) (by rw [e1, e2]; exact h127) hl
  rw [e1, e2] at g1 g2
  refine ⟨fun hlt => g1 hlt fuel, fun hc => ?_⟩
  obtain ⟨v, g3, g4, g5⟩ := g2 hc fuel (by omega)
  refine ⟨v, g3, g4, fun a ha => ?_⟩
  have hsame := g5 a ha
  have hport : a.getPort = r.lo.getPort := by unfold Addr.getPort; rw [hsame.port]
  have hmask : a.getMask = r.lo.getMask := by unfold Addr.getMask; rw [hsame.mask]
  refine ⟨by rw [hport, a3], ?_, by rw [hmask, a5]⟩
  rw [hsame.portDefined, a4]
  exact decide_eq_true_iff

/-- C151 for a parser which merges: each number which an entry covers is listed once, whatever the order and the overlaps of the entries. -/
theorem C151_merged (env : ParseEnv) (p : Parser) (inp : Str) (Q : List AccessItem) (L : List Nat) (limit fuel : Nat) (h : ReadsAccess p)
    (hm : p.config.sort &&& SORT_MERGE ≠ 0) (hq : WritesItems p inp Q) (hb : ∀ q ∈ Q, q.bits = 128) (hmax : ∀ q ∈ Q, q.hi < maxIp)
    (hL : ∀ x, Covered Q x → x ∈ L) (hlim : L.length ≤ limit) (hl : limit < 2 ^ 32) (hf : limit ≤ fuel) :
    ∃ m v, (Parser.parse env inp p).2 = .ok m ∧ Range.toAddressesAll m limit fuel = some (.ok v)
      ∧ (v.map fun a => ip a.getIpv6.addr).Nodup ∧ ∀ x, x ∈ v.map (fun a => ip a.getIpv6.addr) ↔ Covered Q x := by
  obtain ⟨l, h1, h2⟩ := items_read env h hq
  have hord := items_order hq
  have hl1 : (Parser.parse env inp (unsortedOf p)).2 = .ok l := by rw [h1]
  obtain ⟨_, _, _, _, e5⟩ := parse_sort env inp p
  obtain ⟨hdl, hsort⟩ := e5 l hl1
  obtain ⟨m, hm1, _⟩ := C110_ranges env p inp Q h hm hq hb
  rcases C43_merge_partial env inp p hm l hl1 with h' | ⟨m', h', hd, hh, hp, _, _⟩
  · rw [h'] at hm1; cases hm1
  rw [h'] at hm1
  cases hm1
  have hne : ∀ r ∈ m, first r ≤ last r := sortResult_nonempty p.config.sort (fun r hr => ⟨hdl r hr, by
    obtain ⟨q, hqQ, hi⟩ := items_left h2 r hr
    rw [hi.lo, hi.hi]
    exact (hord q hqQ).1⟩) (hsort.symm.trans h')
  have hcov : ∀ x, Holding m x ↔ Covered Q x := fun x => (hh x).trans (items_holding h2 x)
  have hnum : ∀ x, x ∈ m.flatMap numbersOf ↔ Covered Q x := fun x => by
    rw [List.mem_flatMap, ← hcov]
    exact ⟨fun ⟨r, hr, hx⟩ => ⟨r, hr, (mem_numbersOf (hd r hr) _).1 hx⟩, fun ⟨r, hr, hx⟩ => ⟨r, hr, (mem_numbersOf (hd r hr) _).2 hx⟩⟩
  have hnodup : (m.flatMap numbersOf).Nodup := by
    refine nodup_flatten_map (fun r _ => ?_) (hp.imp_of_mem fun {a b} ha hb hab x hx hy => ?_)
    · unfold numbersOf
      split
      · exact List.nodup_range'
      · exact List.nodup_nil
    · have i1 := (mem_numbersOf (hd a ha) x).1 hx
      have i2 := (mem_numbersOf (hd b hb) x).1 hy
      refine hab (hne a ha) (hne b hb) ?_
      unfold between at i1 i2
      unfold meetOrTouch
      omega
  have hlen : (m.flatMap numbersOf).length ≤ L.length :=
    (List.subperm_of_subset hnodup fun x hx => hL x ((hnum x).1 hx)).length_le
  have htot : total m ≤ limit := by
    rw [List.length_flatMap] at hlen
    exact Nat.le_trans hlen hlim
  have hlist : ∀ r ∈ m, Listable r := fun r hr hc => by
    have e1 := first_of_complete hc
    have e2 := last_of_complete hc
    have g1 := hne r hr
    rw [e1, e2] at g1
    obtain ⟨q, hqQ, hbt⟩ := (hcov (last r)).1 ⟨r, hr, by unfold between; exact ⟨hne r hr, Nat.le_refl _⟩⟩
    have g2 := hmax q hqQ
    unfold between at hbt
    rw [e2] at hbt
    have g3 := Nat.le_trans (le_total hr) htot
    rw [numbersOf_complete hc, List.length_range'] at g3
    exact ⟨g1, by omega, by omega⟩
  have hlm : m.length ≤ limit := by
    refine Nat.le_trans ?_ htot
    exact length_le_total m hd hne
  obtain ⟨v, g1, g2⟩ := (C99_list_partial m limit hlist (by omega)
    (Nat.lt_of_le_of_lt (Nat.mul_le_mul_right limit hlm) (Nat.lt_of_lt_of_le (Nat.mul_lt_mul_of_lt_of_lt hl hl) (by decide))) fuel hf).2 htot
  exact ⟨m, v, h', g1, by rw [g2]; exact hnodup, fun x => by rw [g2]; exact hnum x⟩

/-! ### The largest address, and lists as the theorems take them -/

def topText : Str := "ffff:ffff:ffff:ffff:ffff:ffff:ffff:ffff".toList

theorem top_address : AddressOf topText maxIp := by
  refine .inr ⟨by decide, ?_⟩
  have h := (Inet.pton6_iff topText (Vector.replicate 16 255)).1 (by decide +kernel)
  rwa [show ip (Vector.replicate 16 255) = maxIp by decide +kernel] at h

theorem top_writes : WritesItems plainParser (topText ++ '-' :: topText) [⟨maxIp, maxIp, 128, true⟩] := by
  unfold WritesItems
  rw [show (fields (separates plainParser) (topText ++ '-' :: topText)).filter (· ≠ []) = [topText ++ '-' :: topText] by decide +kernel]
  exact .item (trims_self (by decide) (by decide)) (.span (.bare6 (by decide)) (.both top_address top_address) (Nat.le_refl _)) .nil

/-- The result is the range of the largest address alone. -/
def lastRangeOf : Res (List Range) → Bool
  | .ok [r] => r.hasFrom && r.hasTo && decide (toIp r = maxIp) && decide (r.size = .ok 1)
  | _ => false

theorem lastRangeOf_some {x : Res (List Range)} (h : lastRangeOf x = true) :
    ∃ r, x = .ok [r] ∧ r.hasFrom = true ∧ r.hasTo = true ∧ toIp r = maxIp ∧ r.size = .ok 1 := by
  unfold lastRangeOf at h
  split at h
  · rename_i r
    simp only [Bool.and_eq_true, decide_eq_true_eq] at h
    exact ⟨r, rfl, h.1.1.1, h.1.1.2, h.1.2, h.2⟩
  · cases h

/-- C151 fails: the list of the largest address alone, written as a range, is never listed. -/
theorem C151_claim_fails : ¬ C151_claim := by
  intro h
  have hu : Unsorted plainParser := by unfold Unsorted; decide
  obtain ⟨l, h1, _, h2⟩ := h sampleEnv plainParser _ _ 10 plainParser_reads hu top_writes (by decide)
  obtain ⟨fuel, v, h3, _⟩ := h2 (by decide)
  obtain ⟨r, k0, k1, k2, k3, k4⟩ := lastRangeOf_some (x := (Parser.parse sampleEnv (topText ++ '-' :: topText) plainParser).2) (by decide +kernel)
  rw [k0] at h1
  obtain rfl := Res.ok.inj h1
  have hdiv := C26_diverges r 10 1 ⟨k1, k2⟩ k3 k4 (by decide) fuel
  have ht : Range.totalSize [r] 0 = .ok 1 := by simp [Range.totalSize, k4]
  rw [Range.toAddressesAll, ht] at h3
  simp [Range.concatAddresses, hdiv] at h3

-- C151_list_partial: two addresses and a range.
example : ∃ l v, (Parser.parse sampleEnv "10.0.0.9,10.0.0.1-10.0.0.3".toList plainParser).2 = .ok l
    ∧ Range.toAddressesAll l 10 10 = some (.ok v)
    ∧ v.map (fun a => ip a.getIpv6.addr) = [0xFFFF0A000009, 0xFFFF0A000001, 0xFFFF0A000002, 0xFFFF0A000003] := by
  have hq : WritesItems plainParser "10.0.0.9,10.0.0.1-10.0.0.3".toList
      [⟨0xFFFF0A000009, 0xFFFF0A000009, 128, false⟩, ⟨0xFFFF0A000001, 0xFFFF0A000003, 128, true⟩] := by
    unfold WritesItems
    rw [show (fields (separates plainParser) "10.0.0.9,10.0.0.1-10.0.0.3".toList).filter (· ≠ [])
      = ["10.0.0.9".toList, "10.0.0.1-10.0.0.3".toList] by decide +kernel]
    exact .item (trims_self (by decide) (by decide)) (.network (network_host (v := 0x0A000009) (by decide)))
      (.item (trims_self (by decide) (by decide)) (.span (.bare4 (by decide))
        (.both (addressOf_dotted (v := 0x0A000001) (by decide)) (addressOf_dotted (v := 0x0A000003) (by decide))) (by decide)) .nil)
  obtain ⟨l, h1, _, h2⟩ := C151_list_partial sampleEnv plainParser _ _ 10 10 plainParser_reads (by decide) hq (by
    intro q hq
    rcases (by simpa using hq : q = _ ∨ q = _) with rfl | rfl <;> decide) (by decide) (by decide) (by decide)
  obtain ⟨v, h3, _, h4⟩ := h2 (by decide)
  exact ⟨l, v, h1, h3, (h4 (by unfold Unsorted; decide)).trans (by decide)⟩

-- C151_merged: the range and the address overlap.
example : ∃ m v, (Parser.parse sampleEnv "10.0.0.2,10.0.0.1-10.0.0.3".toList mergeRangeParser).2 = .ok m
    ∧ Range.toAddressesAll m 10 10 = some (.ok v) ∧ (v.map fun a => ip a.getIpv6.addr).Nodup := by
  have hq : WritesItems mergeRangeParser "10.0.0.2,10.0.0.1-10.0.0.3".toList
      [⟨0xFFFF0A000002, 0xFFFF0A000002, 128, false⟩, ⟨0xFFFF0A000001, 0xFFFF0A000003, 128, true⟩] := by
    unfold WritesItems
    rw [show (fields (separates mergeRangeParser) "10.0.0.2,10.0.0.1-10.0.0.3".toList).filter (· ≠ [])
      = ["10.0.0.2".toList, "10.0.0.1-10.0.0.3".toList] by decide +kernel]
    exact .item (trims_self (by decide) (by decide)) (.network (network_host (v := 0x0A000002) (by decide)))
      (.item (trims_self (by decide) (by decide)) (.span (.bare4 (by decide))
        (.both (addressOf_dotted (v := 0x0A000001) (by decide)) (addressOf_dotted (v := 0x0A000003) (by decide))) (by decide)) .nil)
  obtain ⟨m, v, h1, h2, h3, _⟩ := C151_merged sampleEnv mergeRangeParser _ _ [0xFFFF0A000001, 0xFFFF0A000002, 0xFFFF0A000003] 10 10
    mergeRangeParser_reads (by decide) hq (by simp) (by simp [maxIp]) (by
      rintro x ⟨q, hq, hx⟩
      unfold between at hx
      rcases (by simpa using hq : q = _ ∨ q = _) with rfl | rfl
      · obtain rfl : x = 0xFFFF0A000002 := by dsimp only at hx; omega
        decide
      · dsimp only at hx
        rcases (by omega : x = 0xFFFF0A000001 ∨ x = 0xFFFF0A000002 ∨ x = 0xFFFF0A000003) with rfl | rfl | rfl <;> decide)
    (by decide) (by decide) (by decide)
  exact ⟨m, v, h1, h2, h3⟩

-- C151_range: three addresses with a port.
example : ∃ r v, Parser.parse sampleEnv "10.0.0.1-10.0.0.3:80".toList rangeParser = (rangeParser, .ok [r])
    ∧ r.toAddresses 10 10 = some (.ok v) ∧ ∀ a ∈ v, a.getPort = 80 := by
  obtain ⟨r, h1, _, h2⟩ := C151_range sampleEnv rangeParser "10.0.0.1-10.0.0.3:80".toList "10.0.0.1-10.0.0.3:80".toList
    "10.0.0.1-10.0.0.3".toList "80".toList 0xFFFF0A000001 0xFFFF0A000003 80 10 10
    (rangeParser_reads _ (by decide)) (trims_self (by decide) (by decide)) (.port4 (u := "10.0.0.1-10.0.0.3".toList) (q := "80".toList) (by decide) (by decide) (.inl (by decide)))
    (.both (addressOf_dotted (v := 0x0A000001) (by decide)) (addressOf_dotted (v := 0x0A000003) (by decide)))
    ⟨by decide, by rw [if_pos (by decide)]; exact ⟨.inl (by decide), by decide⟩⟩ (by decide) (by decide) (by decide) (by decide) (by decide)
  obtain ⟨v, h3, _, h4⟩ := h2 (by decide)
  exact ⟨r, v, h1, h3, fun a ha => (h4 a ha).1⟩

end Verif
