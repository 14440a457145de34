import Verif.Props.NetworkEnum
import Verif.Props.Reachable

/-!
# Property C145: what is said of a network is true of its addresses
-/

namespace Verif

open Spec

/-- The claim: when `is_lan()` or `is_wan()` is true of a network, it is true of all the addresses which the network matches. -/
def C145_claim : Prop :=
  ∀ (a b : Addr) (n : Nat) (x : Bool), a.getMaskSize = n → Fresh a → Fresh b → a.matchAddr b false = true →
    (a.isLan x = true → b.isLan x = true) ∧ (a.isWan x = true → b.isWan x = true)

/-- The networks of which all the addresses are local; without the argument `include_all`, only those which are private or of the machine itself. -/
def lanBlocks (includeAll : Bool) : List (Nat × Nat) :=
  [(v4 10 0 0 0, 104), (v4 172 16 0 0, 108), (v4 192 168 0 0, 112), (0xfd00 * 2 ^ 112, 8), (v4 127 0 0 0, 104), (1, 128)]
    ++ if includeAll then [(v4 100 64 0 0, 106), (v4 169 254 0 0, 112), (0xfe80 * 2 ^ 112, 10), (v4 224 0 0 0, 100), (0xff00 * 2 ^ 112, 8)]
       else (List.range 16).map fun i => ((0xff01 + 16 * i) * 2 ^ 112, 16)

/-- The networks of which no address is one of the Internet; with the argument `include_default`, the default addresses are not among them. -/
def notWanBlocks (includeDefault : Bool) : List (Nat × Nat) :=
  lanBlocks true ++ [(0x20010db8 * 2 ^ 96, 32), (0x3fff * 2 ^ 112, 20)] ++ if includeDefault then [] else [(v4 0 0 0 0, 128), (0, 128)]

theorem local_logic {a b c d e f g h i j k s1 s2 : Prop} (h1 : s1 → k) (h2 : s2 → k) :
    ((a ∨ b ∨ c ∨ d) ∨ (e ∨ f ∨ s1) ∨ g ∨ (h ∨ i ∨ s2) ∨ j ∨ (k ∧ ¬ s1 ∧ ¬ s2)) ↔ a ∨ b ∨ c ∨ d ∨ e ∨ f ∨ g ∨ h ∨ i ∨ j ∨ k := by
  grind

theorem private_logic {a b c d e f s : Prop} : ((a ∨ b ∨ c ∨ d) ∨ e ∨ f ∨ s) ↔ (a ∨ b ∨ c ∨ d ∨ e ∨ f) ∨ s := by
  grind

theorem lan_iff (a : Addr) (h : Fresh a) (x : Bool) : a.isLan x = true ↔ ∃ c ∈ lanBlocks x, inBlock (ip a.getIpv6.addr) c.1 c.2 := by
  obtain ⟨_, _, _, _, _, _, _, h1, h2, _⟩ := C14_predicates a h
  generalize hv : ip a.getIpv6.addr = v at h1 h2
  cases x with
  | true =>
    rw [h2]
    simp only [lanBlocks, if_true, List.cons_append, List.nil_append, List.exists_mem_cons_iff, List.not_mem_nil, false_and, exists_false, or_false, inBlock_one,
      isPrivate, isLoopback, isCarrier, isLinkLocal, isMulticast]
    exact local_logic (fun h => h.1) (fun h => h.1)
  | false =>
    rw [h1]
    have hs : inScope v 1 ↔ ∃ c ∈ (List.range 16).map fun i => ((0xff01 + 16 * i) * 2 ^ 112, 16), inBlock v c.1 c.2 := by
      constructor
      · rintro ⟨⟨g1, g2⟩, g3⟩
        have g3 : v / 2 ^ 112 % 16 = 1 := g3
        refine ⟨((0xff01 + 16 * ((v / 2 ^ 112 - 0xff01) / 16)) * 2 ^ 112, 16), List.mem_map.2 ⟨(v / 2 ^ 112 - 0xff01) / 16, List.mem_range.2 ?_, rfl⟩, ?_⟩
        · omega
        · show (0xff01 + 16 * ((v / 2 ^ 112 - 0xff01) / 16)) * 2 ^ 112 ≤ v ∧ v < (0xff01 + 16 * ((v / 2 ^ 112 - 0xff01) / 16)) * 2 ^ 112 + 2 ^ (128 - 16)
          omega
      · rintro ⟨⟨c1, c2⟩, hc, g1, g2⟩
        obtain ⟨i, hi, e⟩ := List.mem_map.1 hc
        obtain ⟨rfl, rfl⟩ := Prod.mk.inj e
        have hi := List.mem_range.1 hi
        have g1 : (0xff01 + 16 * i) * 2 ^ 112 ≤ v := g1
        have g2 : v < (0xff01 + 16 * i) * 2 ^ 112 + 2 ^ (128 - 16) := g2
        have h16 : v / 2 ^ 112 = 0xff01 + 16 * i := by
          rw [Nat.div_eq_iff (Nat.two_pow_pos _)]
          exact ⟨g1, Nat.le_sub_one_of_lt g2⟩
        have b1 : 0xff00 ≤ v / 2 ^ 112 := by rw [h16]; omega
        have b2 : v / 2 ^ 112 < 0x10000 := by rw [h16]; omega
        refine ⟨⟨(Nat.le_div_iff_mul_le (Nat.two_pow_pos _)).1 b1, ?_⟩, (by rw [top16, h16]; omega)⟩
        have := (Nat.div_lt_iff_lt_mul (Nat.two_pow_pos _)).1 b2
        exact this
    simp only [lanBlocks, Bool.false_eq_true, if_false, List.mem_append, or_and_right, exists_or, ← hs]
    simp only [List.exists_mem_cons_iff, List.not_mem_nil, false_and, exists_false, or_false, inBlock_one, isPrivate, isLoopback]
    exact private_logic

theorem wan_iff (a : Addr) (h : Fresh a) (x : Bool) : a.isWan x = true ↔ ∀ c ∈ notWanBlocks x, ¬ inBlock (ip a.getIpv6.addr) c.1 c.2 := by
  have hl := lan_iff a h true
  obtain ⟨_, _, _, _, _, h3, h4, _, _, h5⟩ := C14_predicates a h
  have ht := isWan_iff a h
  have hd : a.isValid = true ↔ ¬ isDocumentation (ip a.getIpv6.addr) := by
    rw [← h3]; cases a.isValid <;> simp
  have ha := (C12_table_disjoint (ip a.getIpv6.addr)).2.2.2.2.2.1
  have htrue : a.isWan true = true ↔ ∀ c ∈ notWanBlocks true, ¬ inBlock (ip a.getIpv6.addr) c.1 c.2 := by
    rw [h4, hd, ← Bool.not_eq_true, hl]
    simp only [notWanBlocks, List.mem_append, if_true, List.not_mem_nil, or_false, or_imp, forall_and, List.forall_mem_cons, isDocumentation, not_or,
      false_imp_iff, implies_true, and_true, not_exists, not_and]
  cases x with
  | true => exact htrue
  | false =>
    have e : a.isWan false = true ↔ a.isWan true = true ∧ ¬ isAny (ip a.getIpv6.addr) := by
      rw [h5, ht, ← ha]
      constructor
      · intro h; exact ⟨.inl h, by rw [h]; decide⟩
      · rintro ⟨h | h, h'⟩
        · exact h
        · exact absurd h h'
    rw [e, htrue]
    simp only [notWanBlocks, List.mem_append, if_true, Bool.false_eq_true, if_false, List.not_mem_nil, or_false, or_imp, forall_and, List.forall_mem_cons, isAny,
      not_or, false_imp_iff, implies_true, and_true, inBlock_one]

/-- A network, as a number and a number of bits. -/
theorem match_iff (a b : Addr) (n : Nat) (h : a.getMaskSize = n) :
    a.matchAddr b false = true ↔ ip b.getIpv6.addr / 2 ^ (128 - n) = ip a.getIpv6.addr / 2 ^ (128 - n) := by
  rw [C11_match_block a b n h, (C10_apply_mask_block a n h).1, (C10_apply_mask_block a n h).2, blockFirst, blockLast]
  have hp : 0 < 2 ^ (128 - n) := Nat.two_pow_pos _
  generalize 2 ^ (128 - n) = d at hp
  rw [Nat.div_eq_iff hp]
  generalize ip a.getIpv6.addr / d * d = q
  omega

theorem in_iff {v c m : Nat} (h : c % 2 ^ (128 - m) = 0) : inBlock v c m ↔ v / 2 ^ (128 - m) = c / 2 ^ (128 - m) := by
  have hp : 0 < 2 ^ (128 - m) := Nat.two_pow_pos _
  unfold inBlock
  generalize 2 ^ (128 - m) = d at *
  rw [Nat.div_eq_iff hp, Nat.div_mul_cancel (Nat.dvd_of_mod_eq_zero h)]
  omega

theorem wider {v w m n : Nat} (hm : m ≤ n) (h : v / 2 ^ (128 - n) = w / 2 ^ (128 - n)) : v / 2 ^ (128 - m) = w / 2 ^ (128 - m) := by
  have e : 2 ^ (128 - m) = 2 ^ (128 - n) * 2 ^ (128 - m - (128 - n)) := by
    rw [← Nat.pow_add]; congr 1; omega
  rw [e, ← Nat.div_div_eq_div_mul, ← Nat.div_div_eq_div_mul, h]

theorem lan_aligned (x : Bool) : ∀ c ∈ lanBlocks x, c.1 % 2 ^ (128 - c.2) = 0 ∧ c.2 ≤ 128 ∧ 0 < c.2 ∧ c.1 < 2 ^ 128 := by
  cases x <;> decide +kernel

theorem notWan_aligned (x : Bool) : ∀ c ∈ notWanBlocks x, c.1 % 2 ^ (128 - c.2) = 0 ∧ c.2 ≤ 128 ∧ c.1 < 2 ^ 128 := by
  cases x <;> decide +kernel

/-- The first address of the other half of the network which is twice as large. -/
def sibling (c : Nat × Nat) : Nat :=
  if c.1 / 2 ^ (128 - c.2) % 2 = 0 then c.1 + 2 ^ (128 - c.2) else c.1 - 2 ^ (128 - c.2)

theorem sibling_not_lan (x : Bool) : ∀ c ∈ lanBlocks x, (∀ d ∈ lanBlocks x, ¬ inBlock (sibling c) d.1 d.2) ∧ sibling c < 2 ^ 128
    ∧ sibling c / 2 ^ (128 - c.2 + 1) = c.1 / 2 ^ (128 - c.2 + 1) := by
  cases x <;> decide +kernel

/-- A network which is not within a local one has an address which is not local. -/
theorem lan_all (x : Bool) (v n : Nat) :
    (∀ w, w < 2 ^ 128 → w / 2 ^ (128 - n) = v / 2 ^ (128 - n) → ∃ c ∈ lanBlocks x, inBlock w c.1 c.2) → v < 2 ^ 128 →
    ∃ c ∈ lanBlocks x, inBlock v c.1 c.2 ∧ c.2 ≤ n := by
  intro h hv
  obtain ⟨c, hc, hin⟩ := h v hv rfl
  refine ⟨c, hc, hin, ?_⟩
  refine Classical.byContradiction fun hn => ?_
  obtain ⟨h1, h2, h3⟩ := sibling_not_lan x c hc
  obtain ⟨g1, g2, g3, _⟩ := lan_aligned x c hc
  have e : 128 - c.2 + 1 = 128 - (c.2 - 1) := by omega
  rw [e] at h3
  have h4 := wider (m := n) (n := c.2 - 1) (by omega) h3
  have h5 := wider (m := n) (n := c.2) (by omega) ((in_iff g1).1 hin)
  obtain ⟨d, hd, hin'⟩ := h (sibling c) h2 (h4.trans h5.symm)
  exact h1 d hd hin'

/-- Exactly which networks have only local addresses: those within one of the networks of the table. -/
theorem C145_lan_exact (a : Addr) (n : Nat) (x : Bool) (hn : a.getMaskSize = n) :
    (∀ b : Addr, Fresh b → a.matchAddr b false = true → b.isLan x = true)
      ↔ ∃ c ∈ lanBlocks x, inBlock (ip a.getIpv6.addr) c.1 c.2 ∧ c.2 ≤ n := by
  constructor
  · intro h
    refine lan_all x _ n ?_ (ip_lt _)
    intro w hw he
    obtain ⟨b, hb⟩ := exists_address w hw
    have hf : Fresh { b with privateNetwork := .undefined } := .inl rfl
    have hb : ip ({ b with privateNetwork := .undefined } : Addr).getIpv6.addr = w := hb
    have := (lan_iff _ hf x).1 (h _ hf ((match_iff a _ n hn).2 (by rw [hb]; exact he)))
    rw [hb] at this
    exact this
  · rintro ⟨c, hc, hin, hle⟩ b hb hm
    obtain ⟨g1, _⟩ := lan_aligned x c hc
    exact (lan_iff b hb x).2 ⟨c, hc, (in_iff g1).2 ((wider hle ((match_iff a b n hn).1 hm)).trans ((in_iff g1).1 hin))⟩

/-- The claim is true of a network when both its first and its last address are local. -/
theorem C145_lan_ends_partial (a b : Addr) (n : Nat) (x : Bool) (hn : a.getMaskSize = n) (hb : Fresh b)
    (h1 : ∀ f : Addr, Fresh f → ip f.getIpv6.addr = ip (a.applyMask false).getIpv6.addr → f.isLan x = true)
    (h2 : ∀ f : Addr, Fresh f → ip f.getIpv6.addr = ip (a.applyMask true).getIpv6.addr → f.isLan x = true)
    (hm : a.matchAddr b false = true) : b.isLan x = true := by
  obtain ⟨e1, e2⟩ := C10_apply_mask_block a n hn
  rw [e1] at h1
  rw [e2] at h2
  have hle : n ≤ 128 := by have := (C09_mask_size_other a).2.2; omega
  have hv : ip a.getIpv6.addr < 2 ^ 128 := ip_lt _
  have value : ∀ w, w < 2 ^ 128 → (∀ f : Addr, Fresh f → ip f.getIpv6.addr = w → f.isLan x = true) → ∃ c ∈ lanBlocks x, inBlock w c.1 c.2 := by
    intro w hw h
    obtain ⟨f, hf⟩ := exists_address w hw
    have hfr : Fresh { f with privateNetwork := .undefined } := .inl rfl
    have hf : ip ({ f with privateNetwork := .undefined } : Addr).getIpv6.addr = w := hf
    have := (lan_iff _ hfr x).1 (h _ hfr hf)
    rw [hf] at this
    exact this
  have hlast : blockLast (ip a.getIpv6.addr) n < 2 ^ 128 := e2 ▸ ip_lt _
  have hfirst : blockFirst (ip a.getIpv6.addr) n < 2 ^ 128 := e1 ▸ ip_lt _
  obtain ⟨c, hc, hin⟩ := value _ hfirst h1
  obtain ⟨d, hd, hin'⟩ := value _ hlast h2
  obtain ⟨g1, g2, g3, _⟩ := lan_aligned x c hc
  have hq : blockFirst (ip a.getIpv6.addr) n / 2 ^ (128 - n) = ip a.getIpv6.addr / 2 ^ (128 - n) :=
    Nat.mul_div_cancel _ (Nat.two_pow_pos _)
  by_cases hcn : c.2 ≤ n
  · exact (C145_lan_exact a n x hn).2 ⟨c, hc, (in_iff g1).2 ((wider hcn hq.symm).trans ((in_iff g1).1 hin)), hcn⟩ b hb hm
  · exfalso
    have hdv : 2 ^ (128 - n) ∣ blockFirst (ip a.getIpv6.addr) n := ⟨_, Nat.mul_comm _ _⟩
    have hdv' : 2 ^ (128 - c.2) ∣ blockFirst (ip a.getIpv6.addr) n := (Nat.pow_dvd_pow 2 (by omega)).trans hdv
    have hfc : blockFirst (ip a.getIpv6.addr) n = c.1 := by
      have := (in_iff g1).1 hin
      rw [← Nat.div_mul_cancel hdv', this, Nat.div_mul_cancel (Nat.dvd_of_mod_eq_zero g1)]
    have hl : blockLast (ip a.getIpv6.addr) n = c.1 + (2 ^ (128 - n) - 1) := by rw [← hfc]; rfl
    rw [hfc] at hdv
    rw [hl] at hin'
    have key : ∀ c ∈ lanBlocks x, ∀ n < 129, n < c.2 → c.1 % 2 ^ (128 - n) = 0 → ∀ d ∈ lanBlocks x, ¬ inBlock (c.1 + (2 ^ (128 - n) - 1)) d.1 d.2 := by
      cases x <;> decide +kernel
    exact key c hc n (by omega) (by omega) (Nat.mod_eq_zero_of_dvd hdv) d hd hin'

/-- Exactly which networks have only addresses of the Internet, when this is said of the network: those which match the first address of no network of the table. -/
theorem C145_wan_exact (a : Addr) (n : Nat) (x : Bool) (hn : a.getMaskSize = n) (ha : Fresh a) (hw : a.isWan x = true) :
    (∀ b : Addr, Fresh b → a.matchAddr b false = true → b.isWan x = true)
      ↔ ∀ c ∈ notWanBlocks x, ∀ b : Addr, ip b.getIpv6.addr = c.1 → a.matchAddr b false = false := by
  constructor
  · intro h c hc b hb
    obtain ⟨g1, g2, g3⟩ := notWan_aligned x c hc
    refine Bool.eq_false_iff.2 fun hm => ?_
    have hf : Fresh { b with privateNetwork := .undefined } := .inl rfl
    have hb' : ip ({ b with privateNetwork := .undefined } : Addr).getIpv6.addr = c.1 := hb
    have hm' : a.matchAddr { b with privateNetwork := .undefined } false = true := hm
    refine (wan_iff _ hf x).1 (h _ hf hm') c hc ?_
    rw [hb']
    exact ⟨Nat.le_refl _, Nat.lt_add_of_pos_right (Nat.two_pow_pos _)⟩
  · intro h b hb hm
    refine (wan_iff b hb x).2 fun c hc hin => ?_
    obtain ⟨g1, g2, g3⟩ := notWan_aligned x c hc
    have hm := (match_iff a b n hn).1 hm
    by_cases hcn : c.2 ≤ n
    · exact (wan_iff a ha x).1 hw c hc ((in_iff g1).2 ((wider hcn hm).symm.trans ((in_iff g1).1 hin)))
    · obtain ⟨f, hf⟩ := exists_address c.1 g3
      have := h c hc f hf
      rw [Bool.eq_false_iff] at this
      refine this ((match_iff a f n hn).2 ?_)
      rw [hf]
      exact (wider (by omega) ((in_iff g1).1 hin)).symm.trans hm

/-- 10.0.0.0/4. -/
def wideLan : Addr := { sampleV4 10 0 0 0 with mask := #v[255, 255, 255, 255, 255, 255, 255, 255, 255, 255, 255, 255, 0xf0, 0, 0, 0] }

/-- 8.0.0.0/6. -/
def wideWan : Addr := { sampleV4 8 0 0 0 with mask := #v[255, 255, 255, 255, 255, 255, 255, 255, 255, 255, 255, 255, 0xfc, 0, 0, 0] }

/-- 10.0.0.0/4 is said to be local and has 8.8.8.8. -/
theorem C145_claim_fails : ¬ C145_claim := by
  intro hc
  have := (hc wideLan (sampleV4 8 8 8 8) 100 false (by decide +kernel) (by decide +kernel) (by decide +kernel) (by decide +kernel)).1 (by decide +kernel)
  exact absurd this (by decide +kernel)

/-- 8.0.0.0/6 is said to be of the Internet, as are its first and its last address, and has 10.0.0.1. -/
theorem C145_wan_ends_fail : wideWan.getMaskSize = 102 ∧ wideWan.isWan false = true ∧ (sampleV4 8 0 0 0).isWan false = true
    ∧ (sampleV4 11 255 255 255).isWan false = true ∧ ip (sampleV4 11 255 255 255).getIpv6.addr = ip (wideWan.applyMask true).getIpv6.addr
    ∧ wideWan.matchAddr (sampleV4 10 0 0 1) false = true ∧ (sampleV4 10 0 0 1).isWan true = false := by
  decide +kernel

/-- 10.1.0.0/16 has only local addresses. -/
example : ∀ b : Addr, Fresh b →
    ({ sampleV4 10 1 0 0 with mask := #v[255, 255, 255, 255, 255, 255, 255, 255, 255, 255, 255, 255, 255, 255, 0, 0] } : Addr).matchAddr b false = true →
      b.isLan false = true :=
  (C145_lan_exact _ 112 false (by decide +kernel)).2 ⟨(v4 10 0 0 0, 104), by decide, by decide +kernel, by decide⟩

/-- 8.8.8.0/24 has only addresses of the Internet. -/
example : ∀ b : Addr, Fresh b →
    ({ sampleV4 8 8 8 0 with mask := #v[255, 255, 255, 255, 255, 255, 255, 255, 255, 255, 255, 255, 255, 255, 255, 0] } : Addr).matchAddr b false = true →
      b.isWan false = true := by
  refine (C145_wan_exact _ 120 false (by decide +kernel) (by decide +kernel) (by decide +kernel)).2 fun c hc b hb => ?_
  rw [Bool.eq_false_iff, Ne, match_iff _ _ 120 (by decide +kernel), hb]
  clear hb
  revert c
  decide +kernel

end Verif
