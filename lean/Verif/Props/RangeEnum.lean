import Verif.Props.MergeCanonical

/-!
# Property C99: the addresses of a list of ranges
-/

namespace Verif

open Spec

/-- The numbers of the addresses of a range, in increasing order: a range with one bound is that address, a range without bounds is empty. -/
def numbersOf (r : Range) : List Nat := if Defined r then List.range' (first r) (count (first r) (last r)) else []

/-- A range of which `to_addresses()` lists the addresses (C26): it has at most one bound, or is not empty, does not end with the largest
address and does not hold `2^127` addresses. -/
def Listable (r : Range) : Prop :=
  Complete r → fromIp r ≤ toIp r ∧ toIp r < maxIp ∧ count (fromIp r) (toIp r) ≠ 2 ^ 127

instance (r : Range) : Decidable (Listable r) := inferInstanceAs (Decidable (_ → _))

/-- How many addresses the ranges hold together, those which are in several of them counted as often. -/
def total (l : List Range) : Nat := (l.map fun r => (numbersOf r).length).sum

/-! ### The vocabulary above in terms of the model -/

theorem numbersOf_complete {r : Range} (h : Complete r) : numbersOf r = List.range' (fromIp r) (count (fromIp r) (toIp r)) := by
  rw [numbersOf, if_pos (.inl h.1), first_of_complete h, last_of_complete h]

theorem numbersOf_incomplete {r : Range} (h : ¬ Complete r) :
    numbersOf r = (if r.hasFrom = true then [r.lo] else if r.hasTo = true then [r.hi] else []).map fun a => ip a.getIpv6.addr := by
  unfold Complete at h
  unfold numbersOf Defined first last fromIp toIp count
  by_cases h1 : r.hasFrom = true <;> by_cases h2 : r.hasTo = true <;> simp_all [List.range']

theorem numbersOf_incomplete_length {r : Range} (h : ¬ Complete r) : (numbersOf r).length = if Defined r then 1 else 0 := by
  rw [numbersOf_incomplete h]
  unfold Complete at h
  unfold Defined
  by_cases h1 : r.hasFrom = true <;> by_cases h2 : r.hasTo = true <;> simp_all

theorem size_listable {r : Range} (h : Listable r) : r.size = .ok (min (numbersOf r).length (2 ^ 64 - 1)) := by
  by_cases hc : Complete r
  · obtain ⟨h1, h2, h3⟩ := h hc
    rw [numbersOf_complete hc, List.length_range']
    unfold maxIp at h2
    exact (C25_size_partial r hc).2 ⟨by omega, h3, by unfold count; omega⟩
  · rw [numbersOf_incomplete_length hc, C25_size_incomplete r hc]
    congr 1
    split <;> omega

theorem list_one {r : Range} {limit fuel : Nat} (h : Listable r) (hl : limit < 2 ^ 64 - 1) (hf : limit ≤ fuel) :
    (limit < (numbersOf r).length → r.toAddresses limit fuel = some (.throw .outOfRange))
      ∧ ((numbersOf r).length ≤ limit →
          ∃ v, r.toAddresses limit fuel = some (.ok v) ∧ v.map (fun a => ip a.getIpv6.addr) = numbersOf r) := by
  by_cases hc : Complete r
  · obtain ⟨h1, h2, h3⟩ := h hc
    rw [numbersOf_complete hc, List.length_range']
    obtain ⟨i1, i2⟩ := C26_enumerates_partial r limit hc h1 h2 h3 hl
    refine ⟨fun hlt => i1 hlt fuel, fun hle => ?_⟩
    obtain ⟨v, j1, j2, _⟩ := i2 hle fuel (by omega)
    exact ⟨v, j1, j2⟩
  · rw [numbersOf_incomplete_length hc]
    have hs := C25_size_incomplete r hc
    constructor
    · intro hlt
      unfold Range.toAddresses
      simp only [hs]
      rw [if_pos hlt]
    · intro hle
      refine ⟨_, ?_, (numbersOf_incomplete hc).symm⟩
      unfold Range.toAddresses
      simp only [hs]
      rw [if_neg (by omega)]
      unfold Complete at hc
      cases hf : r.hasFrom <;> cases ht : r.hasTo <;> simp_all

theorem totalSize_ok {l : List Range} (h : ∀ r ∈ l, Listable r) (t : Nat) : ∃ n, Range.totalSize l t = .ok n := by
  induction l generalizing t with
  | nil => exact ⟨t, rfl⟩
  | cons r l ih =>
    rw [Range.totalSize, size_listable (h r List.mem_cons_self)]
    exact ih (fun x hx => h x (List.mem_cons_of_mem _ hx)) _

theorem total_cons (r : Range) (l : List Range) : total (r :: l) = (numbersOf r).length + total l := rfl

theorem totalSize_eq {l : List Range} {limit : Nat} (h : ∀ r ∈ l, Listable r) (hl : limit < 2 ^ 64 - 1)
    (hle : ∀ r ∈ l, (numbersOf r).length ≤ limit) (t : Nat) (ht : t + total l < 2 ^ 64) : Range.totalSize l t = .ok (t + total l) := by
  induction l generalizing t with
  | nil => rfl
  | cons r l ih =>
    rw [total_cons] at ht
    have h1 := hle r List.mem_cons_self
    rw [Range.totalSize, size_listable (h r List.mem_cons_self), Nat.min_eq_left (by omega)]
    dsimp only
    rw [Nat.mod_eq_of_lt (by omega), ih (fun x hx => h x (List.mem_cons_of_mem _ hx)) (fun x hx => hle x (List.mem_cons_of_mem _ hx)) _ (by omega),
      total_cons, Nat.add_assoc]

theorem total_le {l : List Range} {limit : Nat} (h : ∀ r ∈ l, (numbersOf r).length ≤ limit) : total l ≤ l.length * limit := by
  induction l with
  | nil => exact Nat.zero_le _
  | cons r l ih =>
    have h1 := h r List.mem_cons_self
    have h2 := ih fun x hx => h x (List.mem_cons_of_mem _ hx)
    rw [total_cons, List.length_cons, Nat.add_mul]
    omega

theorem le_total {l : List Range} {r : Range} (hr : r ∈ l) : (numbersOf r).length ≤ total l := by
  induction l with
  | nil => cases hr
  | cons x l ih =>
    rw [total_cons]
    rcases List.mem_cons.1 hr with rfl | hr
    · omega
    · have := ih hr
      omega

theorem concat_ok {l : List Range} {limit fuel : Nat} (h : ∀ r ∈ l, Listable r) (hl : limit < 2 ^ 64 - 1) (hf : limit ≤ fuel)
    (hle : ∀ r ∈ l, (numbersOf r).length ≤ limit) :
    ∃ v, Range.concatAddresses limit fuel l = some (.ok v) ∧ v.map (fun a => ip a.getIpv6.addr) = l.flatMap numbersOf := by
  induction l with
  | nil => exact ⟨[], rfl, rfl⟩
  | cons r l ih =>
    obtain ⟨v, h1, h2⟩ := ih (fun x hx => h x (List.mem_cons_of_mem _ hx)) fun x hx => hle x (List.mem_cons_of_mem _ hx)
    obtain ⟨w, h3, h4⟩ := (list_one (h r List.mem_cons_self) hl hf).2 (hle r List.mem_cons_self)
    refine ⟨w ++ v, ?_, ?_⟩
    · rw [Range.concatAddresses, h3]
      dsimp only
      rw [h1]
    · rw [List.map_append, h2, h4, List.flatMap_cons]

theorem concat_throws {l : List Range} {limit fuel : Nat} (h : ∀ r ∈ l, Listable r) (hl : limit < 2 ^ 64 - 1) (hf : limit ≤ fuel)
    (hlt : ∃ r ∈ l, limit < (numbersOf r).length) : Range.concatAddresses limit fuel l = some (.throw .outOfRange) := by
  induction l with
  | nil =>
    obtain ⟨r, hr, _⟩ := hlt
    cases hr
  | cons r l ih =>
    obtain ⟨i1, i2⟩ := list_one (h r List.mem_cons_self) hl hf
    by_cases hr : limit < (numbersOf r).length
    · rw [Range.concatAddresses, i1 hr]
    · obtain ⟨v, j1, _⟩ := i2 (by omega)
      have hlt' : ∃ r ∈ l, limit < (numbersOf r).length := by
        obtain ⟨x, hx, hx'⟩ := hlt
        rcases List.mem_cons.1 hx with rfl | hx
        · exact absurd hx' hr
        · exact ⟨x, hx, hx'⟩
      rw [Range.concatAddresses, j1]
      dsimp only
      rw [ih (fun x hx => h x (List.mem_cons_of_mem _ hx)) hlt']

/-! ### C99 -/

/-- C99, full statement. -/
def C99_claim : Prop := ∀ (l : List Range) (limit : Nat), (∀ r ∈ l, Listable r) → limit < 2 ^ 64 - 1 →
  (limit < total l → ∃ fuel, Range.toAddressesAll l limit fuel = some (.throw .outOfRange))
    ∧ (total l ≤ limit → ∃ fuel v, Range.toAddressesAll l limit fuel = some (.ok v)
        ∧ v.map (fun a => ip a.getIpv6.addr) = l.flatMap numbersOf)

/-- C99: the addresses of the ranges one after the other, or `out_of_range` when there are more of them than the limit.
Missing from the full statement: the lists with so many ranges that the number of ranges times the limit is not a `size_t`. -/
theorem C99_list_partial (l : List Range) (limit : Nat) (h : ∀ r ∈ l, Listable r) (hl : limit < 2 ^ 64 - 1) (hn : l.length * limit < 2 ^ 64)
    (fuel : Nat) (hf : limit ≤ fuel) :
    (limit < total l → Range.toAddressesAll l limit fuel = some (.throw .outOfRange))
      ∧ (total l ≤ limit → ∃ v, Range.toAddressesAll l limit fuel = some (.ok v)
          ∧ v.map (fun a => ip a.getIpv6.addr) = l.flatMap numbersOf) := by
  by_cases hle : ∀ r ∈ l, (numbersOf r).length ≤ limit
  · have hlt := total_le hle
    have hs := totalSize_eq h hl hle 0 (by omega)
    rw [Nat.zero_add] at hs
    unfold Range.toAddressesAll
    simp only [hs]
    constructor
    · intro hgt
      rw [if_pos hgt]
    · intro hle'
      rw [if_neg (by omega)]
      exact concat_ok h hl hf hle
  · have hex : ∃ r ∈ l, limit < (numbersOf r).length := by
      refine Classical.byContradiction fun hno => hle fun r hr => ?_
      exact Nat.le_of_not_lt fun hlt => hno ⟨r, hr, hlt⟩
    constructor
    · intro _
      obtain ⟨n, hs⟩ := totalSize_ok h 0
      unfold Range.toAddressesAll
      simp only [hs]
      split
      · rfl
      · exact concat_throws h hl hf hex
    · intro hle'
      obtain ⟨r, hr, hlt⟩ := hex
      have := le_total hr
      omega

/-- C99: with a limit at which the sizes of the ranges wrap around, `2^64` addresses are listed instead of an error. -/
theorem C99_claim_fails : ¬ C99_claim := by
  intro hc
  have e : ∃ r : Range, Complete r ∧ fromIp r = 0 ∧ toIp r = 2 ^ 63 - 1 :=
    ⟨sampleRange (sampleAddr (Vector.replicate 16 0)) (sampleAddr #v[0, 0, 0, 0, 0, 0, 0, 0, 127, 255, 255, 255, 255, 255, 255, 255]),
      by decide, by decide, by decide⟩
  obtain ⟨r, hr, h1, h2⟩ := e
  have hL : Listable r := fun _ => by
    rw [h1, h2]
    decide
  have hlen : (numbersOf r).length = 2 ^ 63 := by
    rw [numbersOf_complete hr, List.length_range', h1, h2]
    decide
  have hall : ∀ x ∈ [r, r], Listable x := by simp [hL]
  have htot : total [r, r] = 2 ^ 64 := by simp [total, hlen]
  obtain ⟨fuel, hthrow⟩ := (hc [r, r] (2 ^ 63) hall (by decide)).1 (by rw [htot]; decide)
  have hsize : Range.totalSize [r, r] 0 = .ok 0 := by
    have hs := size_listable hL
    rw [hlen] at hs
    simp only [Range.totalSize, hs]
    rfl
  unfold Range.toAddressesAll at hthrow
  simp only [hsize] at hthrow
  rw [if_neg (by decide)] at hthrow
  have hs := size_listable hL
  rw [hlen, Nat.min_eq_left (by decide)] at hs
  have key : r.toAddresses (2 ^ 63) fuel = (Range.addressesLoop r.hi fuel r.lo).map .ok := by
    unfold Range.toAddresses
    simp only [hs]
    rw [if_neg (by decide), if_pos (by rw [hr.1, hr.2]; rfl)]
  simp only [Range.concatAddresses, key] at hthrow
  cases hloop : Range.addressesLoop r.hi fuel r.lo with
  | none => rw [hloop] at hthrow; cases hthrow
  | some v => rw [hloop] at hthrow; cases hthrow

theorem mem_numbersOf {r : Range} (hd : Defined r) (x : Nat) : x ∈ numbersOf r ↔ between x (first r) (last r) := by
  rw [numbersOf, if_pos hd, List.mem_range'_1]
  unfold count between
  omega

theorem listable_first {r : Range} (hd : Defined r) (h : Listable r) : first r ≤ last r := by
  by_cases hc : Complete r
  · rw [first_of_complete hc, last_of_complete hc]
    exact (h hc).1
  · unfold Complete at hc
    unfold Defined at hd
    unfold first last
    by_cases h1 : r.hasFrom = true <;> by_cases h2 : r.hasTo = true <;> simp_all

/-- C99: what is listed are the addresses which `address_match_ranges()` finds in the ranges. -/
theorem C99_matches (l : List Range) (limit fuel : Nat) (hd : ∀ r ∈ l, Defined r) (hw : ∀ r ∈ l, Parser.Whole r) (h : ∀ r ∈ l, Listable r)
    (hl : limit < 2 ^ 64 - 1) (hn : l.length * limit < 2 ^ 64) (hf : limit ≤ fuel) (v : List Addr)
    (hv : Range.toAddressesAll l limit fuel = some (.ok v)) (a : Addr) :
    (∃ b ∈ v, ip b.getIpv6.addr = ip a.getIpv6.addr) ↔ addressMatchRanges l a = .ok true := by
  obtain ⟨h1, h2⟩ := C99_list_partial l limit h hl hn fuel hf
  have hle : total l ≤ limit := Nat.le_of_not_lt fun hlt => by
    rw [h1 hlt] at hv
    cases hv
  obtain ⟨w, h3, h4⟩ := h2 hle
  rw [h3] at hv
  cases hv
  obtain ⟨b, h5, h6⟩ := whole_matches hd hw a
  rw [h5]
  have e : (∃ b ∈ v, ip b.getIpv6.addr = ip a.getIpv6.addr) ↔ ip a.getIpv6.addr ∈ v.map fun a => ip a.getIpv6.addr := by
    rw [List.mem_map]
  rw [e, h4, List.mem_flatMap]
  have e2 : (Res.ok b = Res.ok true) ↔ b = true := ⟨(fun h => by cases h; rfl), (fun h => by rw [h])⟩
  rw [e2, h6]
  constructor
  · rintro ⟨r, hr, hx⟩
    exact ⟨r, hr, (mem_numbersOf (hd r hr) _).1 hx⟩
  · rintro ⟨r, hr, hx⟩
    exact ⟨r, hr, (mem_numbersOf (hd r hr) _).2 hx⟩

theorem nodup_flatten_map {l : List Range} {f : Range → List Nat} (h : ∀ r ∈ l, (f r).Nodup)
    (hp : l.Pairwise fun a b => ∀ x, x ∈ f a → x ∈ f b → False) : (l.flatMap f).Nodup := by
  induction hp with
  | nil => exact List.nodup_nil
  | @cons a l ha _ ih =>
    rw [List.flatMap_cons, List.nodup_append]
    refine ⟨h a List.mem_cons_self, ih fun x hx => h x (List.mem_cons_of_mem _ hx), ?_⟩
    rintro x hx _ hy rfl
    obtain ⟨b, hb, hxb⟩ := List.mem_flatMap.1 hy
    exact ha b hb x hx hxb

/-- C99: the addresses of a merged list are listed once each, and they are those of the ranges which were read. -/
theorem C99_merged (env : ParseEnv) (p : Parser) (inp : Str) (hp : p.config.sort &&& SORT_MERGE ≠ 0) (l m : List Range)
    (hl : (Parser.parse env inp (unsortedOf p)).2 = .ok l) (hm : (Parser.parse env inp p).2 = .ok m) (limit fuel : Nat)
    (h : ∀ r ∈ m, Listable r) (hlim : limit < 2 ^ 64 - 1) (hn : m.length * limit < 2 ^ 64) (hf : limit ≤ fuel) (ht : total m ≤ limit) :
    ∃ v, Range.toAddressesAll m limit fuel = some (.ok v) ∧ (v.map fun a => ip a.getIpv6.addr).Nodup
      ∧ ∀ x, x ∈ v.map (fun a => ip a.getIpv6.addr) ↔ ∃ r ∈ l, between x (first r) (last r) := by
  obtain ⟨v, h1, h2⟩ := (C99_list_partial m limit h hlim hn fuel hf).2 ht
  rcases C43_merge_partial env inp p hp l hl with h' | ⟨m', h', hd, hh, hp, _, _⟩
  · rw [h'] at hm; cases hm
  rw [h'] at hm
  cases hm
  refine ⟨v, h1, ?_, ?_⟩
  · rw [h2]
    refine nodup_flatten_map (fun r _ => ?_) (hp.imp_of_mem fun {a b} ha hb hab x hx hy => ?_)
    · unfold numbersOf
      split
      · exact List.nodup_range'
      · exact List.nodup_nil
    · have i1 := (mem_numbersOf (hd a ha) x).1 hx
      have i2 := (mem_numbersOf (hd b hb) x).1 hy
      refine hab (listable_first (hd a ha) (h a ha)) (listable_first (hd b hb) (h b hb)) ?_
      unfold between at i1 i2
      unfold meetOrTouch
      omega
  · intro x
    rw [h2, List.mem_flatMap]
    refine Iff.trans ?_ (hh x)
    constructor
    · rintro ⟨r, hr, hx⟩
      exact ⟨r, hr, (mem_numbersOf (hd r hr) _).1 hx⟩
    · rintro ⟨r, hr, hx⟩
      exact ⟨r, hr, (mem_numbersOf (hd r hr) _).2 hx⟩

/-! ### The hypotheses are met by something -/

/-- Three ranges, one of them with one bound only. -/
def enumRanges : List Range :=
  [sampleRange (sampleV4 10 0 0 1) (sampleV4 10 0 0 3), { Range.default with hasFrom := true, lo := sampleV4 10 0 0 9 },
   sampleRange (sampleV4 10 0 0 2) (sampleV4 10 0 0 2)]

/-- C99: five addresses are listed with a limit of five, none with a limit of four. -/
theorem C99_sample :
    (∃ v, Range.toAddressesAll enumRanges 5 5 = some (.ok v) ∧ v.map (fun a => ip a.getIpv6.addr % 2 ^ 8) = [1, 2, 3, 9, 2])
      ∧ Range.toAddressesAll enumRanges 4 5 = some (.throw .outOfRange) :=
  ⟨⟨_, rfl, by decide +kernel⟩, by decide +kernel⟩

example : (∀ r ∈ enumRanges, Listable r) ∧ (∀ r ∈ enumRanges, Defined r) ∧ total enumRanges = 5 ∧ enumRanges.length * 5 < 2 ^ 64 := by
  decide +kernel

/-- A merged list as C99_merged takes it. -/
def enumMerged : Bool :=
  match (Parser.parse sampleEnv "10.0.0.1,10.0.0.2,10.0.0.9".toList (unsortedOf mergeParser)).2,
    (Parser.parse sampleEnv "10.0.0.1,10.0.0.2,10.0.0.9".toList mergeParser).2 with
  | .ok l, .ok m => decide (l.length = 3 ∧ m.length = 2 ∧ (∀ r ∈ m, Listable r) ∧ total m = 3)
  | _, _ => false

example : mergeParser.config.sort &&& SORT_MERGE ≠ 0 ∧ enumMerged = true := by decide +kernel

end Verif
