import Verif.SpecNetwork
import Verif.Props.RangeSet
import Verif.Props.RangeOrder
import Verif.Props.RangeOptimize

/-!
# Property C100: intersection and union of networks
-/

namespace Verif

open Spec

/-- The mask of the address is `n` ones followed by zeros: the address is the one of a network of `n` bits. -/
def HasBits (a : Addr) (n : Nat) : Prop := n ≤ 128 ∧ ip a.getMask = prefixMask n

/-- The network `x/n` is within the network `y/k`. -/
def Within (x n y k : Nat) : Prop := k ≤ n ∧ InNetwork x y k

/-- The networks have the same size and are within the same network of twice that size. -/
def SameParent (x n y k : Nat) : Prop := n = k ∧ 1 ≤ n ∧ InNetwork x y (n - 1)

instance (x n k : Nat) : Decidable (InNetwork x n k) := inferInstanceAs (Decidable (_ = _))
instance (x n y k : Nat) : Decidable (Within x n y k) := inferInstanceAs (Decidable (_ ∧ _))
instance (x n y k : Nat) : Decidable (SameParent x n y k) := inferInstanceAs (Decidable (_ ∧ _))

/-! ### Blocks of numbers -/

theorem block_split {x p q : Nat} (h : p ≤ q) : x / 2 ^ q * 2 ^ q ≤ x / 2 ^ p * 2 ^ p
    ∧ x / 2 ^ p * 2 ^ p + 2 ^ p ≤ x / 2 ^ q * 2 ^ q + 2 ^ q := by
  obtain ⟨d, rfl⟩ := Nat.exists_eq_add_of_le h
  have hd : x / 2 ^ (p + d) = x / 2 ^ p / 2 ^ d := by rw [Nat.pow_add, Nat.div_div_eq_div_mul]
  rw [hd, Nat.pow_add, Nat.mul_comm (2 ^ p) (2 ^ d), ← Nat.mul_assoc, ← Nat.add_mul]
  have h0 : 0 < 2 ^ d := Nat.two_pow_pos d
  have h1 := Nat.div_add_mod (x / 2 ^ p) (2 ^ d)
  have h2 := Nat.mod_lt (x / 2 ^ p) h0
  rw [Nat.mul_comm] at h1
  constructor
  · exact Nat.mul_le_mul_right _ (by omega)
  · have : x / 2 ^ p * 2 ^ p + 2 ^ p = (x / 2 ^ p + 1) * 2 ^ p := by rw [Nat.add_mul, Nat.one_mul]
    rw [this]
    exact Nat.mul_le_mul_right _ (by omega)

/-- Two blocks, the first not larger than the second, are nested or disjoint. -/
theorem block_cases {x y p q : Nat} (h : p ≤ q) :
    (x / 2 ^ q = y / 2 ^ q ∧ y / 2 ^ q * 2 ^ q ≤ x / 2 ^ p * 2 ^ p ∧ x / 2 ^ p * 2 ^ p + 2 ^ p ≤ y / 2 ^ q * 2 ^ q + 2 ^ q)
      ∨ (x / 2 ^ q ≠ y / 2 ^ q
          ∧ (x / 2 ^ p * 2 ^ p + 2 ^ p ≤ y / 2 ^ q * 2 ^ q ∨ y / 2 ^ q * 2 ^ q + 2 ^ q ≤ x / 2 ^ p * 2 ^ p)) := by
  have h1 := block_split (x := x) h
  by_cases e : x / 2 ^ q = y / 2 ^ q
  · exact .inl ⟨e, by rw [← e]; exact h1⟩
  · refine .inr ⟨e, ?_⟩
    rcases Nat.lt_or_gt_of_ne e with hlt | hgt
    · left
      have : (x / 2 ^ q + 1) * 2 ^ q ≤ y / 2 ^ q * 2 ^ q := Nat.mul_le_mul_right _ hlt
      rw [Nat.add_mul, Nat.one_mul] at this
      omega
    · right
      have : (y / 2 ^ q + 1) * 2 ^ q ≤ x / 2 ^ q * 2 ^ q := Nat.mul_le_mul_right _ hgt
      rw [Nat.add_mul, Nat.one_mul] at this
      omega

theorem isBlock_size {f l m : Nat} : isBlock f l m ↔ ∃ k, f = k * 2 ^ m ∧ l + 1 = k * 2 ^ m + 2 ^ m := by
  have h0 := Nat.two_pow_pos m
  rw [isBlock_iff]
  constructor
  · rintro ⟨k, h1, h2⟩
    exact ⟨k, h1, by omega⟩
  · rintro ⟨k, h1, h2⟩
    exact ⟨k, h1, by omega⟩

theorem sum_pow {p q m : Nat} (h : p ≤ q) (e : 2 ^ p + 2 ^ q = 2 ^ m) : p = q ∧ m = p + 1 := by
  rcases Nat.eq_or_lt_of_le h with rfl | hlt
  · refine ⟨rfl, ?_⟩
    have e' : 2 ^ (p + 1) = 2 ^ m := by rw [Nat.pow_succ]; omega
    exact (Nat.pow_right_inj (by decide)).1 e'.symm
  · exfalso
    have h1 : 2 ^ q < 2 ^ m := by have := Nat.two_pow_pos p; omega
    have h2 : q < m := (Nat.pow_lt_pow_iff_right (by decide)).1 h1
    have h3 : 2 ^ (q + 1) ≤ 2 ^ m := (Nat.pow_le_pow_iff_right (by decide)).2 h2
    have h4 : 2 ^ p < 2 ^ q := (Nat.pow_lt_pow_iff_right (by decide)).2 hlt
    rw [Nat.pow_succ] at h3
    omega

theorem mul_two_pow {a b p : Nat} (h : a * 2 ^ p = b * 2 ^ p) : a = b := Nat.eq_of_mul_eq_mul_right (Nat.two_pow_pos p) h

/-- The hull of two blocks which are next to each other is a block exactly when they are the halves of it. -/
theorem halves_iff {x y p q m : Nat} (hxy : x / 2 ^ p * 2 ^ p + 2 ^ p = y / 2 ^ q * 2 ^ q)
    (hb : isBlock (x / 2 ^ p * 2 ^ p) (y / 2 ^ q * 2 ^ q + 2 ^ q - 1) m) : p = q ∧ x / 2 ^ (p + 1) = y / 2 ^ (p + 1) := by
  have h0 := Nat.two_pow_pos q
  obtain ⟨k, h1, h2⟩ := isBlock_size.1 hb
  have hs : 2 ^ p + 2 ^ q = 2 ^ m := by omega
  have hpq : p = q ∧ m = p + 1 := by
    rcases Nat.le_total p q with h | h
    · exact sum_pow h hs
    · obtain ⟨i, j⟩ := sum_pow (m := m) h (by omega)
      exact ⟨i.symm, by omega⟩
  obtain ⟨rfl, rfl⟩ := hpq
  refine ⟨rfl, ?_⟩
  have e1 : x / 2 ^ p = 2 * k := mul_two_pow (p := p) (by rw [h1, Nat.pow_succ, Nat.mul_comm 2 k, Nat.mul_assoc, Nat.mul_comm 2])
  have e2 : y / 2 ^ p = x / 2 ^ p + 1 := mul_two_pow (p := p) (by rw [← hxy, Nat.add_mul, Nat.one_mul])
  rw [Nat.pow_succ, ← Nat.div_div_eq_div_mul, ← Nat.div_div_eq_div_mul]
  omega

theorem halves_block {x y p : Nat} (hxy : x / 2 ^ p * 2 ^ p + 2 ^ p = y / 2 ^ p * 2 ^ p) (h : x / 2 ^ (p + 1) = y / 2 ^ (p + 1)) :
    isBlock (x / 2 ^ p * 2 ^ p) (y / 2 ^ p * 2 ^ p + 2 ^ p - 1) (p + 1) := by
  have h0 := Nat.two_pow_pos p
  have e2 : y / 2 ^ p = x / 2 ^ p + 1 := mul_two_pow (p := p) (by rw [← hxy, Nat.add_mul, Nat.one_mul])
  rw [Nat.pow_succ, ← Nat.div_div_eq_div_mul, ← Nat.div_div_eq_div_mul] at h
  refine isBlock_size.2 ⟨x / 2 ^ p / 2, ?_, ?_⟩
  · rw [Nat.pow_succ, Nat.mul_comm (2 ^ p) 2, ← Nat.mul_assoc]
    congr 1
    omega
  · have e3 : x / 2 ^ p = x / 2 ^ p / 2 * 2 := by omega
    have e4 : x / 2 ^ p * 2 ^ p = x / 2 ^ p / 2 * 2 ^ (p + 1) := by
      rw [Nat.pow_succ, Nat.mul_comm (2 ^ p) 2, ← Nat.mul_assoc, ← e3]
    rw [← e4, Nat.pow_succ]
    omega

/-! ### The ranges of networks -/

theorem cidr_range {a : Addr} {n : Nat} (h : HasBits a n) {r : Range} (hr : Range.fromCidr a = .ok r) :
    Complete r ∧ fromIp r = blockFirst (ip a.getIpv6.addr) n ∧ toIp r = blockLast (ip a.getIpv6.addr) n := by
  obtain ⟨r', _, h1, h2, _, _, h3, h4, _⟩ := C27_cidr_roundtrip a Addr.default n h.1 h.2
  rw [h1] at hr
  cases hr
  exact ⟨h2, h3, h4⟩

theorem between_block {v x n : Nat} : between v (blockFirst x n) (blockLast x n) ↔ InNetwork v x n := by
  unfold between blockFirst blockLast InNetwork
  rw [eq_comm, div_eq_iff_between]

theorem block_isBlock (x n : Nat) : isBlock (blockFirst x n) (blockLast x n) (128 - n) := by
  rw [isBlock_iff]
  exact ⟨x / 2 ^ (128 - n), rfl, rfl⟩

theorem block_inj {x y n k : Nat} (h1 : blockFirst x n = blockFirst y k) (h2 : blockLast x n = blockLast y k) (hn : n ≤ 128) (hk : k ≤ 128) :
    n = k ∧ InNetwork x y n := by
  have p1 := Nat.two_pow_pos (128 - n)
  have p2 := Nat.two_pow_pos (128 - k)
  unfold blockFirst at h1
  unfold blockLast at h2
  have e : 2 ^ (128 - n) = 2 ^ (128 - k) := by omega
  have e' : 128 - n = 128 - k := (Nat.pow_right_inj (by decide)).1 e
  have e2 : n = k := by omega
  subst e2
  exact ⟨rfl, mul_two_pow h1⟩

/-- What `to_cidr()` makes of a range which has the bounds of a network. -/
theorem to_cidr_network {r : Range} (hc : Complete r) {x n : Nat} (hn : n ≤ 128) (h1 : fromIp r = blockFirst x n)
    (h2 : toIp r = blockLast x n) (out : Addr) :
    ∃ a', r.toCidr out = (a', .ok true) ∧ ip a'.getIpv6.addr = blockFirst x n ∧ HasBits a' n := by
  obtain ⟨_, a', h3, _, _, _, h4, _, h5, _⟩ := C28_to_cidr_result r out (128 - n) (by omega) hc (by rw [h1, h2]; exact block_isBlock x n)
  refine ⟨a', h3, by rw [h4, h1], hn, ?_⟩
  rw [h5]
  congr 1
  omega

/-- One of the networks is within the other, or they are the halves of one. -/
def Joins (x n y k : Nat) : Prop := Within x n y k ∨ Within y k x n ∨ SameParent x n y k

/-- The hull of the blocks, when they meet or touch, is a block. -/
def HullIsBlock (x n y k : Nat) : Prop :=
  meetOrTouch (blockFirst x n) (blockLast x n) (blockFirst y k) (blockLast y k)
    ∧ ∃ m, m ≤ 128 ∧ isBlock (min (blockFirst x n) (blockFirst y k)) (max (blockLast x n) (blockLast y k)) m

theorem Joins.symm {x n y k : Nat} : Joins x n y k → Joins y k x n := by
  rintro (h | h | ⟨rfl, h1, h2⟩)
  · exact .inr (.inl h)
  · exact .inl h
  · exact .inr (.inr ⟨rfl, h1, h2.symm⟩)

theorem HullIsBlock.symm {x n y k : Nat} : HullIsBlock x n y k → HullIsBlock y k x n := by
  rintro ⟨h, m, hm, hb⟩
  exact ⟨⟨h.2, h.1⟩, m, hm, by rw [Nat.min_comm, Nat.max_comm]; exact hb⟩

theorem hull_iff_le {x n y k : Nat} (hn : n ≤ 128) (hk : k ≤ n) : HullIsBlock x n y k ↔ Joins x n y k := by
  have px := Nat.two_pow_pos (128 - n)
  have py := Nat.two_pow_pos (128 - k)
  have lx : blockLast x n = blockFirst x n + 2 ^ (128 - n) - 1 := by unfold blockFirst blockLast; omega
  have ly : blockLast y k = blockFirst y k + 2 ^ (128 - k) - 1 := by unfold blockFirst blockLast; omega
  rcases block_cases (x := x) (y := y) (p := 128 - n) (q := 128 - k) (by omega) with ⟨e, h1, h2⟩ | ⟨e, hd⟩
  · refine ⟨fun _ => .inl ⟨hk, e⟩, fun _ => ⟨?_, 128 - k, by omega, ?_⟩⟩
    · rw [lx, ly]
      unfold meetOrTouch blockFirst
      omega
    · have hb := block_isBlock y k
      have e1 : min (blockFirst x n) (blockFirst y k) = blockFirst y k := by unfold blockFirst; omega
      have e2 : max (blockLast x n) (blockLast y k) = blockLast y k := by rw [lx, ly]; unfold blockFirst; omega
      rw [e1, e2]
      exact hb
  · have hj : Joins x n y k ↔ SameParent x n y k := by
      refine ⟨?_, fun h => .inr (.inr h)⟩
      rintro (⟨_, h⟩ | ⟨h1, h⟩ | h)
      · exact absurd h e
      · have : n = k := by omega
        subst this
        exact absurd h.symm e
      · exact h
    rw [hj]
    constructor
    · rintro ⟨ht, m, hm, hb⟩
      rw [lx, ly] at hb
      unfold meetOrTouch at ht
      rw [lx, ly] at ht
      unfold blockFirst at hb ht
      rcases hd with hd | hd
      · have hxy : x / 2 ^ (128 - n) * 2 ^ (128 - n) + 2 ^ (128 - n) = y / 2 ^ (128 - k) * 2 ^ (128 - k) := by omega
        rw [Nat.min_eq_left (by omega), Nat.max_eq_right (by omega)] at hb
        obtain ⟨i, j⟩ := halves_iff hxy hb
        have hnk : n = k := by omega
        subst hnk
        have hn1 : 1 ≤ n := Nat.pos_of_ne_zero fun h0 => by
          subst h0
          obtain ⟨t, t1, t2⟩ := isBlock_size.1 hb
          have : 2 ^ (128 - 0) + 2 ^ (128 - 0) = 2 ^ m := by omega
          have := (sum_pow (Nat.le_refl _) this).2
          omega
        refine ⟨rfl, hn1, ?_⟩
        unfold InNetwork
        rw [show 128 - (n - 1) = 128 - n + 1 by omega]
        exact j
      · have hxy : y / 2 ^ (128 - k) * 2 ^ (128 - k) + 2 ^ (128 - k) = x / 2 ^ (128 - n) * 2 ^ (128 - n) := by omega
        rw [Nat.min_eq_right (by omega), Nat.max_eq_left (by omega)] at hb
        obtain ⟨i, j⟩ := halves_iff hxy hb
        have hnk : n = k := by omega
        subst hnk
        have hn1 : 1 ≤ n := Nat.pos_of_ne_zero fun h0 => by
          subst h0
          obtain ⟨t, t1, t2⟩ := isBlock_size.1 hb
          have : 2 ^ (128 - 0) + 2 ^ (128 - 0) = 2 ^ m := by omega
          have := (sum_pow (Nat.le_refl _) this).2
          omega
        refine ⟨rfl, hn1, ?_⟩
        unfold InNetwork
        rw [show 128 - (n - 1) = 128 - n + 1 by omega]
        exact j.symm
    · rintro ⟨rfl, hn1, hp⟩
      unfold InNetwork at hp
      rw [show 128 - (n - 1) = 128 - n + 1 by omega] at hp
      have hp' := hp
      rw [Nat.pow_succ, ← Nat.div_div_eq_div_mul, ← Nat.div_div_eq_div_mul] at hp'
      have step {i j : Nat} (h : i = j + 1) : i * 2 ^ (128 - n) = j * 2 ^ (128 - n) + 2 ^ (128 - n) := by
        rw [h, Nat.add_mul, Nat.one_mul]
      rcases hd with hd | hd
      · have e1 : y / 2 ^ (128 - n) = x / 2 ^ (128 - n) + 1 := by
          have : x / 2 ^ (128 - n) < y / 2 ^ (128 - n) := Nat.lt_of_mul_lt_mul_right (a := 2 ^ (128 - n)) (by omega)
          omega
        have hs := step e1
        have hb := halves_block hs.symm hp
        refine ⟨?_, 128 - n + 1, by omega, ?_⟩
        · rw [lx, ly]; unfold meetOrTouch blockFirst; omega
        · rw [lx, ly]; unfold blockFirst
          rw [Nat.min_eq_left (by omega), Nat.max_eq_right (by omega)]
          exact hb
      · have e1 : x / 2 ^ (128 - n) = y / 2 ^ (128 - n) + 1 := by
          have : y / 2 ^ (128 - n) < x / 2 ^ (128 - n) := Nat.lt_of_mul_lt_mul_right (a := 2 ^ (128 - n)) (by omega)
          omega
        have hs := step e1
        have hb := halves_block hs.symm hp.symm
        refine ⟨?_, 128 - n + 1, by omega, ?_⟩
        · rw [lx, ly]; unfold meetOrTouch blockFirst; omega
        · rw [lx, ly]; unfold blockFirst
          rw [Nat.min_eq_right (by omega), Nat.max_eq_left (by omega)]
          exact hb

theorem hull_iff {x n y k : Nat} (hn : n ≤ 128) (hk : k ≤ 128) : HullIsBlock x n y k ↔ Joins x n y k := by
  rcases Nat.le_total k n with h | h
  · exact hull_iff_le hn h
  · have := hull_iff_le (x := y) (y := x) hk h
    exact ⟨fun i => (this.1 i.symm).symm, fun i => (this.2 i.symm).symm⟩

/-! ### C100 -/

/-- C100: the intersection of two networks is empty, which happens when they have no address in common, or it is the one which is within
the other, and then `to_cidr()` gives that network. -/
theorem C100_intersection (a b out : Addr) (n k : Nat) (ha : HasBits a n) (hb : HasBits b k) (r s : Range) (hr : Range.fromCidr a = .ok r)
    (hs : Range.fromCidr b = .ok s) :
    ((∀ v, ¬ (InNetwork v (ip a.getIpv6.addr) n ∧ InNetwork v (ip b.getIpv6.addr) k))
        ∧ (r.intersection s).isEmpty = true ∧ (r.intersection s).toCidr out = (out, .ok false))
      ∨ (Within (ip a.getIpv6.addr) n (ip b.getIpv6.addr) k
        ∧ ∃ c, (r.intersection s).toCidr out = (c, .ok true) ∧ HasBits c n ∧ ip c.getIpv6.addr = blockFirst (ip a.getIpv6.addr) n)
      ∨ (Within (ip b.getIpv6.addr) k (ip a.getIpv6.addr) n
        ∧ ∃ c, (r.intersection s).toCidr out = (c, .ok true) ∧ HasBits c k ∧ ip c.getIpv6.addr = blockFirst (ip b.getIpv6.addr) k) := by
  obtain ⟨r1, r2, r3⟩ := cidr_range ha hr
  obtain ⟨s1, s2, s3⟩ := cidr_range hb hs
  obtain ⟨i1, i2, _, i4⟩ := C29_intersection r s r1 s1 Addr.default
  generalize ip a.getIpv6.addr = x at *
  generalize ip b.getIpv6.addr = y at *
  have px := Nat.two_pow_pos (128 - n)
  have py := Nat.two_pow_pos (128 - k)
  simp only [r2, r3, s2, s3, between_block] at i2 i4
  have disjoint (h : ∀ v, ¬ (InNetwork v x n ∧ InNetwork v y k)) :
      (r.intersection s).isEmpty = true ∧ (r.intersection s).toCidr out = (out, .ok false) := by
    have he := i4.2 h
    refine ⟨he, ?_⟩
    rcases C28_to_cidr_iff (r.intersection s) out with ⟨_, _, m, _, hb⟩ | ⟨h1, _⟩
    · have := (isEmpty_iff _).1 he
      have p := Nat.two_pow_pos m
      obtain ⟨j, j1, j2⟩ := isBlock_size.1 hb
      omega
    · exact h1
  -- the bounds of the intersection are those of the network it is equal to
  have same {z j : Nat} (h : ∀ v, (InNetwork v x n ∧ InNetwork v y k) ↔ InNetwork v z j) :
      fromIp (r.intersection s) = blockFirst z j ∧ toIp (r.intersection s) = blockLast z j := by
    have pz := Nat.two_pow_pos (128 - j)
    have h' : ∀ v, between v (fromIp (r.intersection s)) (toIp (r.intersection s)) ↔ between v (blockFirst z j) (blockLast z j) :=
      fun v => (i2 v).trans ((h v).trans between_block.symm)
    have hle : blockFirst z j ≤ blockLast z j := by unfold blockFirst blockLast; omega
    have h1 := (h' (blockFirst z j)).2 ⟨Nat.le_refl _, hle⟩
    have h2 := (h' (blockLast z j)).2 ⟨hle, Nat.le_refl _⟩
    have hle' : fromIp (r.intersection s) ≤ toIp (r.intersection s) := Nat.le_trans h1.1 h1.2
    have h3 := (h' _).1 ⟨Nat.le_refl _, hle'⟩
    have h4 := (h' _).1 ⟨hle', Nat.le_refl _⟩
    unfold between at h1 h2 h3 h4
    omega
  have nested {x' y' n' k' : Nat} (h : k' ≤ n') (e : InNetwork x' y' k') (v : Nat) : InNetwork v x' n' → InNetwork v y' k' := by
    intro hv
    rcases block_cases (x := v) (y := y') (p := 128 - n') (q := 128 - k') (by omega) with hh | hh
    · exact hh.1
    · have c1 := block_cases (x := x') (y := y') (p := 128 - n') (q := 128 - k') (by omega)
      unfold InNetwork at e hv
      rw [← hv] at c1
      have p1 := Nat.two_pow_pos (128 - n')
      have p2 := Nat.two_pow_pos (128 - k')
      rcases c1 with c1 | c1
      · omega
      · exact absurd e c1.1
  have disj {x' y' n' k' : Nat} (h : k' ≤ n') (e : ¬ InNetwork x' y' k') (v : Nat) : ¬ (InNetwork v x' n' ∧ InNetwork v y' k') := by
    rintro ⟨h1, h2⟩
    exact e ((nested h (by unfold InNetwork; rfl : InNetwork x' x' k') v h1).symm.trans h2)
  rcases Nat.le_total k n with hkn | hnk
  · by_cases e : InNetwork x y k
    · refine .inr (.inl ⟨⟨hkn, e⟩, ?_⟩)
      obtain ⟨j1, j2⟩ := same (z := x) (j := n) fun v => ⟨fun h => h.1, fun h => ⟨h, nested hkn e v h⟩⟩
      obtain ⟨c, h1, h2, h3⟩ := to_cidr_network i1 ha.1 j1 j2 out
      exact ⟨c, h1, h3, h2⟩
    · exact .inl ⟨disj hkn e, disjoint (disj hkn e)⟩
  · by_cases e : InNetwork y x n
    · refine .inr (.inr ⟨⟨hnk, e⟩, ?_⟩)
      obtain ⟨j1, j2⟩ := same (z := y) (j := k) fun v => ⟨fun h => h.2, fun h => ⟨nested hnk e v h, h⟩⟩
      obtain ⟨c, h1, h2, h3⟩ := to_cidr_network i1 hb.1 j1 j2 out
      exact ⟨c, h1, h3, h2⟩
    · have hd : ∀ v, ¬ (InNetwork v x n ∧ InNetwork v y k) := fun v h => disj hnk e v ⟨h.2, h.1⟩
      exact .inl ⟨hd, disjoint hd⟩

/-- C100: when the union of two networks does not throw (C30), it is a network exactly when one is within the other or they are the two
halves of one network; `to_cidr()` then gives the network of the addresses of both. -/
theorem C100_union (a b out : Addr) (n k : Nat) (ha : HasBits a n) (hb : HasBits b k) (r s u : Range) (hr : Range.fromCidr a = .ok r)
    (hs : Range.fromCidr b = .ok s) (hu : r.unionIfPossible s = .ok u) :
    (Joins (ip a.getIpv6.addr) n (ip b.getIpv6.addr) k
        ∧ ∃ c, u.toCidr out = (c, .ok true)
          ∧ ∀ x : Addr, c.matchAddr x = true ↔ InNetwork (ip x.getIpv6.addr) (ip a.getIpv6.addr) n
              ∨ InNetwork (ip x.getIpv6.addr) (ip b.getIpv6.addr) k)
      ∨ (¬ Joins (ip a.getIpv6.addr) n (ip b.getIpv6.addr) k ∧ u.toCidr out = (out, .ok false)) := by
  obtain ⟨r1, r2, r3⟩ := cidr_range ha hr
  obtain ⟨s1, s2, s3⟩ := cidr_range hb hs
  have hdr : Defined r := .inl r1.1
  have hds : Defined s := .inl s1.1
  have fr := first_of_complete r1
  have lr := last_of_complete r1
  have fs := first_of_complete s1
  have ls := last_of_complete s1
  have key := hull_iff (x := ip a.getIpv6.addr) (y := ip b.getIpv6.addr) ha.1 hb.1
  unfold HullIsBlock at key
  rw [← r2, ← r3, ← s2, ← s3] at key
  have hx : fromIp r ≤ toIp r := by rw [r2, r3]; unfold blockFirst blockLast; omega
  have hy : fromIp s ≤ toIp s := by rw [s2, s3]; unfold blockFirst blockLast; omega
  obtain ⟨c1, c2, c3⟩ := union_cases r s hdr
  rw [fr, lr, fs, ls] at c1 c2 c3
  by_cases hm : (fromIp r ≤ toIp s ∧ fromIp s ≤ toIp r) ∨ toIp s + 1 = fromIp r ∨ fromIp s = toIp r + 1
  · have hacc : UnionMasksAccepted r s := by
      refine Classical.byContradiction fun hno => ?_
      rw [c2 hm hno] at hu
      cases hu
    obtain ⟨u', h1, h2, h3, h4, _, h6⟩ := c3 hm hacc
    rw [h1] at hu
    cases hu
    obtain ⟨hc, _⟩ := h6 (.inl r1)
    rw [first_of_complete hc] at h3
    rw [last_of_complete hc] at h4
    by_cases hj : Joins (ip a.getIpv6.addr) n (ip b.getIpv6.addr) k
    · obtain ⟨_, m, hm1, hm2⟩ := key.2 hj
      rw [← h3, ← h4] at hm2
      obtain ⟨_, c, i1, _, _, _, _, _, _, i2⟩ := C28_to_cidr_result u out m hm1 hc hm2
      refine .inl ⟨hj, c, i1, fun x => (i2 x).trans ?_⟩
      have hsound := C30_union_sound r s u hdr hds h1 h2 (ip x.getIpv6.addr)
      rw [first_of_complete hc, last_of_complete hc, fr, lr, fs, ls] at hsound
      rw [hsound, r2, r3, s2, s3, between_block, between_block]
    · refine .inr ⟨hj, ?_⟩
      rcases C28_to_cidr_iff u out with ⟨_, _, m, hm1, hm2⟩ | ⟨i, _⟩
      · refine absurd (key.1 ⟨?_, m, hm1, ?_⟩) hj
        · unfold meetOrTouch; omega
        · rw [← h3, ← h4]; exact hm2
      · exact i
  · rw [c1 hm] at hu
    cases hu
    refine .inr ⟨fun hj => hm ?_, ?_⟩
    · have := (key.2 hj).1
      unfold meetOrTouch at this
      omega
    · rcases C28_to_cidr_iff Range.default out with ⟨_, hc, _⟩ | ⟨i, _⟩
      · exact absurd hc (by decide)
      · exact i

/-- C100: the union of networks of at least 96 bits, such as those of IPv4 addresses, does not throw. -/
theorem C100_union_answers (a b : Addr) (n k : Nat) (ha : HasBits a n) (hb : HasBits b k) (hn : 96 ≤ n) (hk : 96 ≤ k) (r s : Range)
    (hr : Range.fromCidr a = .ok r) (hs : Range.fromCidr b = .ok s) : ∃ u, r.unionIfPossible s = .ok u := by
  obtain ⟨r1, _, _⟩ := cidr_range ha hr
  have size {x : Addr} {m : Nat} (h : HasBits x m) {y : Range} (hy : Range.fromCidr x = .ok y) :
      y.lo.getMaskSize = m ∧ y.hi.getMaskSize = m := by
    obtain ⟨y', _, h1, _, h3, h4, _⟩ := C27_cidr_roundtrip x Addr.default m h.1 h.2
    rw [h1] at hy
    cases hy
    rw [h3, h4]
    exact ⟨(C09_mask_size_iff (x.applyMask false) m h.1).2 h.2, (C09_mask_size_iff (x.applyMask true) m h.1).2 h.2⟩
  obtain ⟨r4, r5⟩ := size ha hr
  obtain ⟨s4, s5⟩ := size hb hs
  have h1 := ha.1
  have h2 := hb.1
  have hacc : UnionMasksAccepted r s := by
    unfold UnionMasksAccepted MaskCountAccepted
    rw [r4, r5, s4, s5]
    constructor <;> constructor <;> (try split) <;> omega
  obtain ⟨c1, _, c3⟩ := union_cases r s (.inl r1.1)
  by_cases hm : (first r ≤ last s ∧ first s ≤ last r) ∨ last s + 1 = first r ∨ first s = last r + 1
  · obtain ⟨u, hu, _⟩ := c3 hm hacc
    exact ⟨u, hu⟩
  · exact ⟨_, c1 hm⟩

/-! ### The hypotheses are met by something -/

/-- C100: 10.0.1.0/24 is within 10.0.0.0/16, 10.0.0.0/24 and 10.0.1.0/24 are the halves of 10.0.0.0/23, and 10.0.1.0/24 and 10.0.2.0/24
are neighbours which are not. -/
theorem C100_sample :
    Within (ip (sampleCidr 10 0 1 0 24).getIpv6.addr) 120 (ip (sampleCidr 10 0 0 0 16).getIpv6.addr) 112
      ∧ SameParent (ip (sampleCidr 10 0 0 0 24).getIpv6.addr) 120 (ip (sampleCidr 10 0 1 0 24).getIpv6.addr) 120
      ∧ ¬ SameParent (ip (sampleCidr 10 0 1 0 24).getIpv6.addr) 120 (ip (sampleCidr 10 0 2 0 24).getIpv6.addr) 120 := by decide +kernel

example : HasBits (sampleCidr 10 0 1 0 24) 120 ∧ HasBits (sampleCidr 10 0 0 0 16) 112 := by
  unfold HasBits
  decide +kernel

end Verif
