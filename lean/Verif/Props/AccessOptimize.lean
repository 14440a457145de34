import Verif.Props.AccessPrint
import Verif.Props.AccessMerge
import Verif.Props.OptimizeFails

/-!
# Property C113: a list of networks is read, optimised and saved
-/

namespace Verif

open Spec

/-- The first and last addresses of the network of `n` with a mask of `k` bits. -/
def ends (q : Nat × Nat) : Nat × Nat := (blockFirst q.1 q.2, blockLast q.1 q.2)

/-- An IPv4 network with an IPv4 mask, or a network of which neither the address nor the ends are IPv4 addresses, and which does not touch
the block of the IPv4 addresses. -/
def UsualNetwork (q : Nat × Nat) : Prop :=
  (isV4 q.1 ∧ 96 ≤ q.2)
    ∨ (¬ isV4 q.1 ∧ ¬ isV4 (ends q).1 ∧ ¬ isV4 (ends q).2 ∧ (ends q).1 ≠ 2 ^ 48 ∧ (ends q).2 + 1 ≠ 0xffff00000000)

/-- A range which has this address only. -/
def only (a : Addr) : Range := Range.default.setFrom a

/-! ### The networks of the entries -/

theorem isV4_ends {n k : Nat} (hk : k ≤ 128) (h : isV4 n) (h96 : 96 ≤ k) : isV4 (blockFirst n k) ∧ isV4 (blockLast n k) := by
  rw [isV4_iff_div] at h ⊢
  rw [isV4_iff_div, blockFirst, blockLast]
  have hb : 0 < 2 ^ (128 - k) := Nat.pow_pos (by decide)
  have hc : (2 : Nat) ^ 32 = 2 ^ (128 - k) * 2 ^ (k - 96) := by
    rw [← Nat.pow_add]
    congr 1
    omega
  rw [hc] at h ⊢
  rw [← Nat.div_div_eq_div_mul, ← Nat.div_div_eq_div_mul, Nat.mul_div_cancel _ hb]
  rw [← Nat.div_div_eq_div_mul] at h
  refine ⟨h, ?_⟩
  rw [show (n / 2 ^ (128 - k) * 2 ^ (128 - k) + (2 ^ (128 - k) - 1)) / 2 ^ (128 - k) = n / 2 ^ (128 - k) from by
    rw [Nat.mul_comm, Nat.mul_add_div hb, Nat.div_eq_of_lt (a := 2 ^ (128 - k) - 1) (by omega)]
    rfl]
  exact h

theorem isV4_first {n k : Nat} (h : isV4 (blockFirst n k)) : 96 ≤ k := by
  refine Nat.le_of_not_lt fun hk => ?_
  rw [isV4_iff_div, blockFirst] at h
  have hc : (2 : Nat) ^ (128 - k) = 2 ^ (95 - k) * 2 * 2 ^ 32 := by
    rw [← Nat.pow_succ, ← Nat.pow_add]
    congr 1
    omega
  rw [hc, ← Nat.mul_assoc, ← Nat.mul_assoc, Nat.mul_div_cancel _ (by decide)] at h
  omega

theorem network_size {r : Range} {n k : Nat} (h : IsNetwork r n k) : r.lo.getMaskSize = (k : Int) :=
  getMaskSize_prefix h.2.2.2.2 h.2.2.2.1

theorem network_ends {r : Range} {n k : Nat} (h : IsNetwork r n k) : networkOf r.lo = ends (n, k) := by
  rw [networkOf, cidrFirst, cidrLast, network_size h, h.2.2.1]
  rfl

theorem network_usual {r : Range} {n k : Nat} (h : IsNetwork r n k) (hu : UsualNetwork (n, k)) : Usual r.lo := by
  have e := network_ends h
  have e1 : cidrFirst r.lo = blockFirst n k := congrArg Prod.fst e
  have e2 : cidrLast r.lo = blockLast n k := congrArg Prod.snd e
  have hs := network_size h
  rw [Usual, e1, e2, hs]
  rcases hu with ⟨h1, h2⟩ | ⟨_, h2⟩
  · obtain ⟨h3, h4⟩ := isV4_ends h.2.2.2.1 h1 h2
    exact .inl ⟨by dsimp only at h2; omega, h3, h4⟩
  · exact .inr ⟨by omega, h2⟩

/-! ### What is left can be printed -/

/-- The entry was in the vector, or was made by masking an address. -/
def FromOrMasked (v : List Addr) (a : Addr) : Prop := a ∈ v ∨ ∃ b : Addr, a = b.applyMask false

theorem FromOrMasked.mono {v v' : List Addr} (hv : ∀ a ∈ v, FromOrMasked v' a) {a : Addr} (h : FromOrMasked v a) : FromOrMasked v' a :=
  h.elim (hv a) .inr

theorem inner_from (l : List Addr) (ra : Range) (vi : Addr) :
    ∀ a ∈ (optimizeInner ra vi l).1 :: (optimizeInner ra vi l).2.1, FromOrMasked (vi :: l) a := by
  induction l generalizing ra vi with
  | nil => exact fun a ha => .inl ha
  | cons vj rest ih =>
    rw [optimizeInner]
    split
    · exact fun a ha => .inl ha
    · exact fun a ha => .inl ha
    · rename_i rb hrb
      split
      · exact fun a ha => .inl ha
      · exact fun a ha => .inl ha
      · rename_i u hu
        dsimp only
        split
        · refine fun a ha => (ih u (u.lo.applyMask false) a ha).mono fun b hb => ?_
          rcases List.mem_cons.1 hb with rfl | hb
          · exact .inr ⟨_, rfl⟩
          · exact .inl (List.mem_cons_of_mem _ (List.mem_cons_of_mem _ hb))
        · intro a ha
          have key : ∀ b ∈ vi :: rest, FromOrMasked (vi :: vj :: rest) b := fun b hb => by
            rcases List.mem_cons.1 hb with rfl | hb
            · exact .inl List.mem_cons_self
            · exact .inl (List.mem_cons_of_mem _ (List.mem_cons_of_mem _ hb))
          rcases List.mem_cons.1 ha with rfl | ha
          · exact (ih ra vi _ List.mem_cons_self).mono key
          · rcases List.mem_cons.1 ha with rfl | ha
            · exact .inl (List.mem_cons_of_mem _ List.mem_cons_self)
            · exact (ih ra vi _ (List.mem_cons_of_mem _ ha)).mono key

theorem outer_from (k : Nat) (l : List Addr) (hk : l.length ≤ k) : ∀ a ∈ (optimizeOuter l).1, FromOrMasked l a := by
  induction k generalizing l with
  | zero =>
    have : l = [] := List.length_eq_zero_iff.1 (by omega)
    subst this
    simp [optimizeOuter]
  | succ k ih =>
    cases l with
    | nil => simp [optimizeOuter]
    | cons vi rest =>
      cases hra : Range.fromCidr vi with
      | throw e =>
        rw [optimizeOuter, hra]
        exact fun a ha => .inl ha
      | ub w =>
        rw [optimizeOuter, hra]
        exact fun a ha => .inl ha
      | ok ra =>
        have i1 := inner_from rest ra vi
        have i4 := optimizeInner_length ra vi rest
        obtain ⟨vi', rest', b, e, hin⟩ : ∃ vi' rest' b e, optimizeInner ra vi rest = (vi', rest', b, e) := ⟨_, _, _, _, rfl⟩
        rw [hin] at i1 i4
        simp only at i1 i4
        by_cases he : e = .ok ()
        · subst he
          rw [outer_cons_ok hra hin]
          simp only [List.length_cons] at hk
          intro a ha
          rcases List.mem_cons.1 ha with rfl | ha
          · exact i1 _ List.mem_cons_self
          · exact (ih rest' (by omega) a ha).mono fun b hb => i1 b (List.mem_cons_of_mem _ hb)
        · rw [outer_cons_stop hra hin he]
          exact i1

theorem optimised_from {n : Nat} {v w : List Addr} (h : Optimised n v w) : AllCidr w ∧ ∀ a ∈ w, FromOrMasked v a := by
  induction h with
  | @stop v w h =>
    have h1 := C34_no_nested_partial v (by rw [h])
    rw [h] at h1
    have h2 : w = v := h1.1
    subst h2
    refine ⟨Classical.byContradiction fun hc => ?_, fun a ha => .inl ha⟩
    obtain ⟨e, he⟩ := C112_not_cidr w hc
    rw [h] at he
    cases he
  | @again n v v' w h _ ih =>
    refine ⟨ih.1, fun a ha => (ih.2 a ha).mono fun b hb => ?_⟩
    have h1 := outer_from v.length v (Nat.le_refl _)
    rw [← optimizeVector_fst, h] at h1
    exact h1 b hb

theorem masked_wide {a b : Addr} {k : Nat} (h : a = b.applyMask false) (hs : a.getMaskSize = (k : Int)) (hv : isV4 (ip a.getIpv6.addr)) : 96 ≤ k := by
  subst h
  have hb : b.getMaskSize = (k : Int) := hs
  obtain ⟨h1, _⟩ := C10_apply_mask_block b k hb
  rw [h1] at hv
  exact isV4_first hv

/-! ### What is left is written -/

theorem size_prefix {a : Addr} (h : 0 ≤ a.getMaskSize) :
    ∃ k : Nat, k ≤ 128 ∧ a.getMaskSize = (k : Int) ∧ ip a.getMask = prefixMask k := by
  obtain ⟨ra, hra⟩ := fromCidr_ok h
  obtain ⟨k, hk⟩ := fromCidr_block hra
  exact ⟨k, hk.le, hk.size, (C09_mask_size_iff a k hk.le).1 hk.size⟩

/-- Entries which can be printed are written as a text which the parser reads as the same networks, in the same order. -/
theorem optimised_written (db : NetDb) (p : Parser) (hcomma : p.config.flags .multiAddressesCommas = true) (w : List Addr) (hc : AllCidr w)
    (hw : ∀ a ∈ w, isV4 (ip a.getIpv6.addr) → 96 ≤ a.getMaskSize) :
    ∃ s Q, Range.toStrAll db listMode ",".toList (w.map only) true = .ok s ∧ WritesNetworks p s Q ∧ Q.map ends = w.map networkOf
      ∧ Q.map Prod.fst = w.map fun a => ip a.getIpv6.addr := by
  have key : ∃ (ts : List Str) (Q : List (Nat × Nat)), List.Forall₂ (fun r t => r.toStr db listMode = .ok t) (w.map only) ts
      ∧ List.Forall₂ (fun t q => Network t q.1 q.2) ts Q ∧ Q.map ends = w.map networkOf ∧ Q.map Prod.fst = w.map fun a => ip a.getIpv6.addr := by
    induction w with
    | nil => exact ⟨[], [], .nil, .nil, rfl, rfl⟩
    | cons a w ih =>
      obtain ⟨ts, Q, i1, i2, i3, i4⟩ := ih (fun b hb => hc b (List.mem_cons_of_mem _ hb)) fun b hb => hw b (List.mem_cons_of_mem _ hb)
      obtain ⟨k, h1, h2, h3⟩ := size_prefix (hc a List.mem_cons_self)
      obtain ⟨t, h4, h5⟩ := listMode_network db a k h1 h3 fun hv => by
        have := hw a List.mem_cons_self hv
        omega
      refine ⟨t :: ts, (ip a.getIpv6.addr, k) :: Q, .cons ?_ i1, .cons h5 i2, ?_, ?_⟩
      · rw [← h4]
        rfl
      · rw [List.map_cons, List.map_cons, i3, networkOf, cidrFirst, cidrLast, h2]
        rfl
      · rw [List.map_cons, List.map_cons, i4]
  obtain ⟨ts, Q, h1, h2, h3, h4⟩ := key
  have hs := Ostream.toStrAll_of ",".toList h1 true
  rw [if_pos rfl] at hs
  refine ⟨_, Q, hs, ?_, h3, h4⟩
  have hright := forall2_left h2
  have hfields : (fields (separates p) (",".toList.intercalate ts)).filter (· ≠ []) = ts := by
    by_cases h0 : ts = []
    · subst h0
      rfl
    · have := fields_intercalate (separates p) ',' (by rw [separates, hcomma]; rfl) ts (fun t ht => by
        obtain ⟨q, _, hq⟩ := hright t ht
        exact listed_separates (.network hq) p) h0
      rw [show ",".toList = [','] from rfl, this, List.filter_eq_self]
      intro t ht
      obtain ⟨q, _, hq⟩ := hright t ht
      simpa using network_ne hq
  rw [WritesNetworks, hfields]
  exact h2.imp fun t q hq => ⟨t, listed_trims (.network hq), hq⟩

theorem mem_ends {Q : List (Nat × Nat)} {l : List Range} (h : List.Forall₂ OneNetwork l Q) : (l.map (·.lo)).map networkOf = Q.map ends := by
  induction h with
  | nil => rfl
  | cons h _ ih => rw [List.map_cons, List.map_cons, List.map_cons, ih, network_ends h.1]

/-- What is read of a list of networks: the networks, in some order, and nothing is reported. -/
theorem networks_sorted (env : ParseEnv) {p : Parser} {inp : Str} {Q : List (Nat × Nat)} (h : ReadsNetworks p) (hm : p.config.sort &&& SORT_MERGE = 0)
    (hq : WritesNetworks p inp Q) :
    ∃ l l0, (Parser.parse env inp p).2 = .ok l ∧ l.Perm l0 ∧ List.Forall₂ OneNetwork l0 Q
      ∧ (Parser.parse env inp p).1.getErrorCount = p.getErrorCount ∧ (Parser.parse env inp p).1.errorMessages = p.errorMessages := by
  obtain ⟨l0, h1, h2⟩ := networks_read env h hq
  obtain ⟨l, h3, h4, _⟩ := C43_sort_permutes env inp p hm l0 (by rw [h1])
  obtain ⟨e1, e2, _⟩ := parse_sort env inp p
  rw [h1] at e1 e2
  exact ⟨l, l0, h3, h4, h2, e2.trans (unsortedOf_error p).2, e1.trans (unsortedOf_error p).1⟩

theorem inNetwork_ends (x : Nat) (q : Nat × Nat) : InNetwork x q.1 q.2 ↔ (ends q).1 ≤ x ∧ x ≤ (ends q).2 := by
  unfold InNetwork ends blockFirst blockLast
  rw [← div_eq_iff_between]
  exact eq_comm

/-- What is read of a list of networks is matched by the addresses between their ends. -/
theorem networks_match (env : ParseEnv) {p : Parser} {inp : Str} {Q : List (Nat × Nat)} (h : ReadsNetworks p) (hm : p.config.sort &&& SORT_MERGE = 0)
    (hq : WritesNetworks p inp Q) {l : List Range} (hl : (Parser.parse env inp p).2 = .ok l) (a : Addr) :
    ∃ b, addressMatchRanges l a = .ok b ∧ (b = true ↔ ∃ y ∈ Q.map ends, y.1 ≤ ip a.getIpv6.addr ∧ ip a.getIpv6.addr ≤ y.2) := by
  obtain ⟨l', l0, h1, h2, h3, _⟩ := networks_sorted env h hm hq
  rw [hl] at h1
  injection h1 with h1
  subst h1
  obtain ⟨b, j1, j2⟩ := C35_any_range l a
  refine ⟨b, j1, j2.trans ?_⟩
  constructor
  · rintro ⟨r, hr, hx⟩
    obtain ⟨q, hq, hrq⟩ := forall2_left h3 r (h2.mem_iff.1 hr)
    exact ⟨_, List.mem_map_of_mem hq, (inNetwork_ends _ q).1 ((network_match hrq.1 a).1 hx)⟩
  · rintro ⟨y, hy, hx⟩
    obtain ⟨q, hq, rfl⟩ := List.mem_map.1 hy
    obtain ⟨r, hr, hrq⟩ := forall2_right h3 q hq
    exact ⟨r, h2.mem_iff.2 hr, (network_match hrq.1 a).2 ((inNetwork_ends _ q).2 hx)⟩

theorem toStrAll_each {db : NetDb} {mode : BitVec 32} {sep : Str} (l : List Range) (first : Bool) {s : Str}
    (h : Range.toStrAll db mode sep l first = .ok s) : ∀ r ∈ l, ∃ t, r.toStr db mode = .ok t := by
  induction l generalizing first s with
  | nil => exact fun r hr => nomatch hr
  | cons r l ih =>
    rw [Range.toStrAll] at h
    cases hr : r.toStr db mode with
    | throw e => rw [hr] at h; cases h
    | ub u => rw [hr] at h; cases h
    | ok t =>
      rw [hr, Res.bind_ok] at h
      cases hs : Range.toStrAll db mode sep l false with
      | throw e => rw [hs] at h; cases h
      | ub u => rw [hs] at h; cases h
      | ok s' =>
        intro r' hr'
        rcases List.mem_cons.1 hr' with rfl | hr'
        · exact ⟨t, hr⟩
        · exact ih false hs r' hr'

/-! ### The property -/

/-- C113: what is left by the loop can be written exactly when no IPv4 address is left with a mask of less than 96 bits. -/
theorem C113_writes_iff (db : NetDb) (n : Nat) (v w : List Addr) (h : Optimised n v w) :
    (∃ s, Range.toStrAll db listMode ",".toList (w.map only) true = .ok s)
      ↔ ∀ a ∈ w, isV4 (ip a.getIpv6.addr) → 96 ≤ a.getMaskSize := by
  have hc := (optimised_from h).1
  constructor
  · rintro ⟨s, hs⟩ a ha hv
    obtain ⟨k, h1, h2, h3⟩ := size_prefix (hc a ha)
    refine Classical.byContradiction fun h96 => ?_
    obtain ⟨t, ht⟩ := toStrAll_each _ true hs (only a) (List.mem_map_of_mem ha)
    rw [C105_throws db (only a) ⟨ip a.getIpv6.addr, k, ⟨rfl, rfl, rfl, h1, h3⟩, hv, by omega⟩] at ht
    cases ht
  · intro hw
    obtain ⟨s, _, hs, _⟩ := optimised_written db accessParser (by decide) w hc hw
    exact ⟨s, hs⟩

/-- C113: when the text of a list of networks was read, the loop ended and what is left was written, the text which was written has exactly the
largest networks of the first text, each of them once, and reading it reports nothing and gives a list which the same addresses match. -/
theorem C113_saved (env : ParseEnv) (db : NetDb) (p : Parser) (inp : Str) (Q : List (Nat × Nat)) (l : List Range) (n : Nat) (w : List Addr) (s : Str)
    (hp : ReadsNetworks p) (hcomma : p.config.flags .multiAddressesCommas = true) (hmerge : p.config.sort &&& SORT_MERGE = 0)
    (hq : WritesNetworks p inp Q) (hl : (Parser.parse env inp p).2 = .ok l) (ho : Optimised n (l.map (·.lo)) w)
    (hs : Range.toStrAll db listMode ",".toList (w.map only) true = .ok s) :
    (∃ Q', WritesNetworks p s Q' ∧ (Q'.map ends).Nodup
      ∧ (∀ x, x ∈ Q'.map ends ↔ x ∈ Q.map ends ∧ ∀ y ∈ Q.map ends, Inside x y → y = x) ∧ n + Q'.length ≤ Q.length + 1)
      ∧ ∃ l', (Parser.parse env s p).2 = .ok l' ∧ (Parser.parse env s p).1.getErrorCount = p.getErrorCount
        ∧ (Parser.parse env s p).1.errorMessages = p.errorMessages ∧ ∀ a : Addr, addressMatchRanges l' a = addressMatchRanges l a := by
  have hc := (optimised_from ho).1
  obtain ⟨s', Q', h1, h2, h3, _⟩ := optimised_written db p hcomma w hc ((C113_writes_iff db n _ w ho).1 ⟨s, hs⟩)
  rw [hs] at h1
  injection h1 with h1
  subst h1
  obtain ⟨l1, l0, g1, g2, g3, _⟩ := networks_sorted env hp hmerge hq
  rw [hl] at g1
  injection g1 with g1
  subst g1
  have hmem : ∀ x, x ∈ (l.map (·.lo)).map networkOf ↔ x ∈ Q.map ends := fun x => by
    rw [← mem_ends g3]
    exact ((g2.map _).map _).mem_iff
  obtain ⟨k1, k2⟩ := C98_largest n _ w ho
  have hlarge : ∀ x, x ∈ Q'.map ends ↔ x ∈ Q.map ends ∧ ∀ y ∈ Q.map ends, Inside x y → y = x := fun x => by
    rw [h3, k2, Largest, hmem]
    exact and_congr_right fun _ => ⟨fun h y hy => h y ((hmem y).2 hy), fun h y hy => h y ((hmem y).1 hy)⟩
  refine ⟨⟨Q', h2, by rw [h3]; exact k1, hlarge, ?_⟩, ?_⟩
  · have e1 := (C98_matches n _ w ho).2
    have e2 := congrArg List.length h3
    have e3 := g2.length_eq
    have e4 := g3.length_eq
    simp only [List.length_map] at e1 e2
    omega
  · obtain ⟨l', l0', j1, _, _, j2, j3⟩ := networks_sorted env hp hmerge h2
    refine ⟨l', j1, j2, j3, fun a => ?_⟩
    obtain ⟨b, m1, m2⟩ := networks_match env hp hmerge h2 j1 a
    obtain ⟨b', m3, m4⟩ := networks_match env hp hmerge hq hl a
    rw [m1, m3]
    refine congrArg Res.ok (Bool.eq_iff_iff.2 (m2.trans (Iff.trans ?_ m4.symm)))
    obtain ⟨hk, _⟩ := optimised_keeps ho
    constructor
    · rintro ⟨y, hy, hx⟩
      exact ⟨y, ((hlarge y).1 hy).1, hx⟩
    · rintro ⟨y, hy, hx⟩
      obtain ⟨z, hz, hyz⟩ := hk.2 y ((hmem y).2 hy)
      exact ⟨z, by rw [h3]; exact hz, Nat.le_trans hyz.1 hx.1, Nat.le_trans hx.2 hyz.2⟩

/-- C113: a list of usual networks, of both families, is read, the loop ends, and what is left is written. -/
theorem C113_usual (env : ParseEnv) (db : NetDb) (p : Parser) (inp : Str) (Q : List (Nat × Nat))
    (hp : ReadsNetworks p) (hmerge : p.config.sort &&& SORT_MERGE = 0)
    (hq : WritesNetworks p inp Q) (hu : ∀ q ∈ Q, UsualNetwork q) :
    ∃ l n w s, (Parser.parse env inp p).2 = .ok l ∧ Optimised n (l.map (·.lo)) w
      ∧ Range.toStrAll db listMode ",".toList (w.map only) true = .ok s := by
  obtain ⟨l, l0, g1, g2, g3, _⟩ := networks_sorted env hp hmerge hq
  have hall : ∀ a ∈ l.map (·.lo), Usual a ∧ (isV4 (ip a.getIpv6.addr) → 96 ≤ a.getMaskSize) := by
    intro a ha
    obtain ⟨r, hr, rfl⟩ := List.mem_map.1 ha
    obtain ⟨q, hq, hrq⟩ := forall2_left g3 r (g2.mem_iff.1 hr)
    refine ⟨network_usual hrq.1 (hu q hq), fun hv => ?_⟩
    rw [network_size hrq.1]
    rw [hrq.1.2.2.1] at hv
    rcases hu q hq with h | h
    · have := h.2
      omega
    · exact absurd hv h.1
  obtain ⟨_, n, w, ho⟩ := C112_usual (l.map (·.lo)) fun a ha => (hall a ha).1
  obtain ⟨s, hs⟩ := (C113_writes_iff db n _ w ho).2 fun a ha hv => by
    obtain ⟨hc, hf⟩ := optimised_from ho
    rcases hf a ha with h | ⟨b, h⟩
    · exact (hall a h).2 hv
    · obtain ⟨k, _, h2, _⟩ := size_prefix (hc a ha)
      have := masked_wide h h2 hv
      omega
  exact ⟨l, n, w, s, g1, ho, hs⟩

/-! ### Examples -/

/-- The first addresses of the ranges which a call returned. -/
def loOf (r : Res (List Range)) : List Addr :=
  match r with
  | .ok l => l.map (·.lo)
  | _ => []

/-- C113: a network of less than 96 bits written with an IPv4 address in it is read, and is kept as it is by the loop, but cannot be written. -/
theorem C113_wide :
    Optimised 1 (loOf (Parser.parse sampleEnv "::ffff:a00:0/8".toList accessParser).2)
        (loOf (Parser.parse sampleEnv "::ffff:a00:0/8".toList accessParser).2)
      ∧ Range.toStrAll sampleDb listMode ",".toList ((loOf (Parser.parse sampleEnv "::ffff:a00:0/8".toList accessParser).2).map only) true
        = .throw .unexpectedMask :=
  ⟨.stop (by decide +kernel), by decide +kernel⟩

/-- C113: two networks on each side of the end of the IPv4 addresses are read, but the loop stops with an exception. -/
theorem C113_clash :
    (Parser.parse sampleEnv "[::1:0:0:0]/80,255.0.0.0/8".toList accessParser).1.getErrorCount = 0
      ∧ (optimizeVector (loOf (Parser.parse sampleEnv "[::1:0:0:0]/80,255.0.0.0/8".toList accessParser).2)).2 = .throw .outOfRange := by
  decide +kernel

/-- The networks of a text. -/
theorem sample_writes : WritesNetworks accessParser "10.0.0.1/24,10.0.1.0/24,[2001:db8::1]/64,10.0.0.0/16".toList
    [(0xFFFF0A000001, 120), (0xFFFF0A000100, 120), (0x20010db8000000000000000000000001, 64), (0xFFFF0A000000, 112)] := by
  have hf : fields (separates accessParser) "10.0.0.1/24,10.0.1.0/24,[2001:db8::1]/64,10.0.0.0/16".toList
      = ["10.0.0.1/24".toList, "10.0.1.0/24".toList, "[2001:db8::1]/64".toList, "10.0.0.0/16".toList] := by
    decide +kernel
  unfold WritesNetworks
  rw [hf]
  refine .cons ⟨_, trims_self (by decide) (by decide), ?_⟩ (.cons ⟨_, trims_self (by decide) (by decide), ?_⟩
    (.cons ⟨_, trims_self (by decide) (by decide), ?_⟩ (.cons ⟨_, trims_self (by decide) (by decide), ?_⟩ .nil)))
  · exact .v4 (v := 0x0A000001) (s := "24".toList) (by decide) (by decide) (by decide) (by decide)
  · exact .v4 (v := 0x0A000100) (s := "24".toList) (by decide) (by decide) (by decide) (by decide)
  · have := (Inet.pton6_iff "2001:db8::1".toList #v[0x20, 1, 0x0d, 0xb8, 0, 0, 0, 0, 0, 0, 0, 0, 0, 0, 0, 1]).1 (by decide +kernel)
    rw [show ip #v[0x20, 1, 0x0d, 0xb8, 0, 0, 0, 0, 0, 0, 0, 0, 0, 0, 0, 1] = 0x20010db8000000000000000000000001 by decide +kernel] at this
    exact .bracket (u := "2001:db8::1".toList) (s := "64".toList) (by decide) this (by decide) (by decide) (by decide)
  · exact .v4 (v := 0x0A000000) (s := "16".toList) (by decide) (by decide) (by decide) (by decide)

/-- C113_usual and C113_saved on a text: the two networks which are within the last one are not in the text which is written. -/
example : ∃ s Q', WritesNetworks accessParser s Q' ∧ (0xFFFF0A000000, 0xFFFF0A00FFFF) ∈ Q'.map ends
    ∧ (0xFFFF0A000100, 0xFFFF0A0001FF) ∉ Q'.map ends ∧ Q'.length ≤ 4 := by
  obtain ⟨l, n, w, s, h1, h2, h3⟩ := C113_usual sampleEnv sampleDb accessParser _ _ accessParser_reads (by decide) sample_writes (by
    intro q hq
    simp only [List.mem_cons, List.not_mem_nil, or_false] at hq
    unfold UsualNetwork isV4 inBlock
    rcases hq with rfl | rfl | rfl | rfl <;> decide +kernel)
  obtain ⟨⟨Q', g1, _, g2, g3⟩, _⟩ := C113_saved sampleEnv sampleDb accessParser _ _ l n w s accessParser_reads (by decide) (by decide) sample_writes
    h1 h2 h3
  refine ⟨s, Q', g1, (g2 _).2 ⟨by decide +kernel, ?_⟩, fun h => ?_, ?_⟩
  · unfold Inside
    decide +kernel
  · exact absurd (((g2 _).1 h).2 (0xFFFF0A000000, 0xFFFF0A00FFFF) (by decide +kernel) (by unfold Inside; decide)) (by decide)
  · have : 1 ≤ n := by cases h2 <;> omega
    simp only [List.length_cons, List.length_nil] at g3
    omega

end Verif
