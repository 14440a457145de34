import Verif.Props.AddrNet
import Verif.SpecReachable

/-!
# Property C143: what is said to be an address of the Internet is reachable from everywhere
-/

namespace Verif

open Spec

/-- The claim: `is_wan(false)` is true of no address which is not globally reachable. -/
def C143_claim : Prop := ∀ a : Addr, Fresh a → a.isWan false = true → ¬ NotReachable (ip a.getIpv6.addr)

/-- The blocks, all of them not globally reachable, which `get_network_type()` does not know: 0.0.0.0/8, 192.0.0.0/24, the three IPv4 blocks for documentation, the blocks
for benchmarks, 240.0.0.0/4 with the broadcast address, 64:ff9b:1::/48, 100::/64, 5f00::/16 and one half of the unique local addresses fc00::/7. -/
def missedBlocks : List (Nat × Nat) :=
  [(v4 0 0 0 0, 104), (v4 192 0 0 0, 120), (v4 192 0 2 0, 120), (v4 198 18 0 0, 111), (v4 198 51 100 0, 120), (v4 203 0 113 0, 120), (v4 240 0 0 0, 100),
   (0x64ff9b0001 * 2 ^ 80, 48), (0x100 * 2 ^ 112, 64), (0x200100020000 * 2 ^ 80, 48), (0x5f00 * 2 ^ 112, 16), (0xfc00 * 2 ^ 112, 8)]

def Missed (v : Nat) : Prop := (∃ b ∈ missedBlocks, inBlock v b.1 b.2) ∧ v ≠ v4 0 0 0 0 ∧ v ≠ v4 192 0 0 9 ∧ v ≠ v4 192 0 0 10

theorem isWan_iff (a : Addr) (h : Fresh a) : a.isWan false = true ↔ typeOf (ip a.getIpv6.addr) = .unknown := by
  have ht : a.getNetworkType.2 = typeOf (ip a.getIpv6.addr) := getNetworkType_fresh a h
  simp only [Addr.isWan, ht]
  cases typeOf (ip a.getIpv6.addr) <;> simp

/-- The blocks which `get_network_type()` knows. -/
def knownBlocks : List (Nat × Nat) :=
  [(v4 10 0 0 0, 104), (v4 172 16 0 0, 108), (v4 192 168 0 0, 112), (0xfd00 * 2 ^ 112, 8), (v4 100 64 0 0, 106), (v4 169 254 0 0, 112), (0xfe80 * 2 ^ 112, 10),
   (v4 127 0 0 0, 104), (1, 128), (v4 224 0 0 0, 100), (0xff00 * 2 ^ 112, 8), (v4 0 0 0 0, 128), (0, 128), (0x20010db8 * 2 ^ 96, 32), (0x3fff * 2 ^ 112, 20)]

theorem inBlock_one (v b : Nat) : inBlock v b 128 ↔ v = b := by
  unfold inBlock
  simp only [Nat.sub_self, Nat.pow_zero]
  omega

theorem unknown_iff (v : Nat) : typeOf v = .unknown ↔ ∀ b ∈ knownBlocks, ¬ inBlock v b.1 b.2 := by
  rw [(C12_table_disjoint v).2.2.2.2.2.2.2.2]
  simp only [knownBlocks, List.forall_mem_cons, List.not_mem_nil, false_imp_iff, implies_true, and_true, inBlock_one, isPrivate, isCarrier, isLinkLocal, isLoopback,
    isMulticast, isAny, isDocumentation, not_or]
  constructor
  · rintro ⟨⟨a1, a2, a3, a4⟩, a5, ⟨a6, a7, a8⟩, ⟨a9, a10⟩, ⟨a11, a12, a13⟩, ⟨a14, a15⟩, a16, a17⟩
    exact ⟨a1, a2, a3, a4, a5, a6, a7, a11, a12, a9, fun h => a10 ⟨h, a13, a8⟩, a14, a15, a16, a17⟩
  · rintro ⟨a1, a2, a3, a4, a5, a6, a7, a11, a12, a9, hm, a14, a15, a16, a17⟩
    exact ⟨⟨a1, a2, a3, a4⟩, a5, ⟨a6, a7, fun h => hm h.1⟩, ⟨a9, fun h => hm h.1⟩, ⟨a11, a12, fun h => hm h.1⟩, ⟨a14, a15⟩, a16, a17⟩

/-- Two blocks have no address in common. -/
def ApartBlocks (b c : Nat × Nat) : Prop := b.1 + 2 ^ (128 - b.2) ≤ c.1 ∨ c.1 + 2 ^ (128 - c.2) ≤ b.1

instance (b c : Nat × Nat) : Decidable (ApartBlocks b c) := inferInstanceAs (Decidable (_ ∨ _))

theorem apart_not {b c : Nat × Nat} (h : ApartBlocks b c) {v : Nat} (hb : inBlock v b.1 b.2) : ¬ inBlock v c.1 c.2 := by
  unfold inBlock at *
  rcases h with h | h <;> omega

/-- The first block is within the second one. -/
def WithinBlock (b c : Nat × Nat) : Prop := c.1 ≤ b.1 ∧ b.1 + 2 ^ (128 - b.2) ≤ c.1 + 2 ^ (128 - c.2)

instance (b c : Nat × Nat) : Decidable (WithinBlock b c) := inferInstanceAs (Decidable (_ ∧ _))

theorem within_in {b c : Nat × Nat} (h : WithinBlock b c) {v : Nat} (hb : inBlock v b.1 b.2) : inBlock v c.1 c.2 := by
  unfold inBlock at *
  obtain ⟨h1, h2⟩ := h
  omega

/-- The addresses which are said to be of the Internet and are not reachable from everywhere are exactly those of the blocks which are not known. -/
theorem C143_exact (a : Addr) (h : Fresh a) :
    a.isWan false = true ∧ NotReachable (ip a.getIpv6.addr) ↔ Missed (ip a.getIpv6.addr) := by
  rw [isWan_iff a h, unknown_iff]
  generalize ip a.getIpv6.addr = v
  constructor
  · rintro ⟨hk, ⟨b, hb, hin⟩, h9, h10⟩
    refine ⟨?_, fun h0 => hk (v4 0 0 0 0, 128) (by decide) ((inBlock_one v _).2 h0), h9, h10⟩
    by_cases hfc : b = (0xfc00 * 2 ^ 112, 7)
    · subst hfc
      refine ⟨(0xfc00 * 2 ^ 112, 8), by decide, ?_⟩
      have := hk (0xfd00 * 2 ^ 112, 8) (by decide)
      unfold inBlock at *
      dsimp only at *
      omega
    · rcases (by decide +kernel : ∀ b ∈ notReachableBlocks, b = (0xfc00 * 2 ^ 112, 7) ∨ b ∈ missedBlocks ∨ ∃ c ∈ knownBlocks, WithinBlock b c) b hb with e | hm | ⟨c, hc, hw⟩
      · exact absurd e hfc
      · exact ⟨b, hm, hin⟩
      · exact absurd (within_in hw hin) (hk c hc)
  · rintro ⟨⟨b, hb, hin⟩, h0, h9, h10⟩
    refine ⟨fun c hc hin' => ?_, ?_, h9, h10⟩
    · rcases (by decide +kernel : ∀ b ∈ missedBlocks, ∀ c ∈ knownBlocks, c = (v4 0 0 0 0, 128) ∨ ApartBlocks b c) b hb c hc with e | hap
      · subst e
        exact h0 ((inBlock_one v _).1 hin')
      · exact apart_not hap hin hin'
    · obtain ⟨c, hc, hw⟩ := (by decide +kernel : ∀ b ∈ missedBlocks, ∃ c ∈ notReachableBlocks, WithinBlock b c) b hb
      exact ⟨c, hc, within_in hw hin⟩

/-- The other way round, an address which is not said to be of the Internet is one which is not globally reachable, or a multicast address. -/
theorem C143_refused (a : Addr) (h : Fresh a) (hw : a.isWan false = false) : NotReachable (ip a.getIpv6.addr) ∨ AnyMulticast (ip a.getIpv6.addr) := by
  have hn : ¬ ∀ b ∈ knownBlocks, ¬ inBlock (ip a.getIpv6.addr) b.1 b.2 := by
    rw [← unknown_iff, ← isWan_iff a h, hw]
    exact Bool.false_ne_true
  generalize ip a.getIpv6.addr = v at hn
  obtain ⟨b, hb, hin⟩ : ∃ b ∈ knownBlocks, inBlock v b.1 b.2 := Classical.byContradiction fun hno => hn fun b hb hin => hno ⟨b, hb, hin⟩
  rcases (by decide +kernel : ∀ b ∈ knownBlocks, b = (v4 224 0 0 0, 100) ∨ b = (0xff00 * 2 ^ 112, 8)
      ∨ (∃ c ∈ notReachableBlocks, WithinBlock b c) ∧ ApartBlocks b (v4 192 0 0 0, 120)) b hb with e | e | ⟨⟨c, hc, hwi⟩, hap⟩
  · subst e
    exact .inr (.inl hin)
  · subst e
    exact .inr (.inr hin)
  · refine .inl ⟨⟨c, hc, within_in hwi hin⟩, fun h9 => apart_not hap hin ?_, fun h10 => apart_not hap hin ?_⟩
    · rw [h9]; decide
    · rw [h10]; decide

/-- The claim is true of the addresses of other blocks. -/
theorem C143_partial (a : Addr) (h : Fresh a) (hm : ¬ Missed (ip a.getIpv6.addr)) (hu : ¬ AnyMulticast (ip a.getIpv6.addr)) :
    a.isWan false = true ↔ ¬ NotReachable (ip a.getIpv6.addr) := by
  constructor
  · exact fun hw hn => hm ((C143_exact a h).1 ⟨hw, hn⟩)
  · intro hn
    cases hw : a.isWan false with
    | true => rfl
    | false => exact absurd (C143_refused a h hw) (fun h' => h'.elim hn hu)

/-- fc00::1, a unique local address, is said to be an address of the Internet. -/
theorem C143_claim_fails : ¬ C143_claim := by
  intro hc
  refine hc (sampleAddr #v[0xfc, 0, 0, 0, 0, 0, 0, 0, 0, 0, 0, 0, 0, 0, 0, 1]) (by decide +kernel) (by decide +kernel) ⟨⟨(0xfc00 * 2 ^ 112, 7), by decide, ?_⟩, ?_, ?_⟩ <;>
    decide +kernel

/-- 255.255.255.255 and 192.0.2.1 as well; 8.8.8.8 is right. -/
example : (sampleV4 255 255 255 255).isWan false = true ∧ (sampleV4 192 0 2 1).isWan false = true ∧ Fresh (sampleV4 192 0 2 1)
    ∧ Missed (ip (sampleV4 192 0 2 1).getIpv6.addr) ∧ ¬ Missed (ip (sampleV4 8 8 8 8).getIpv6.addr) ∧ ¬ AnyMulticast (ip (sampleV4 8 8 8 8).getIpv6.addr) := by
  unfold Missed AnyMulticast
  decide +kernel

end Verif
