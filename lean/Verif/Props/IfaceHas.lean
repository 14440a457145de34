import Verif.Props.IfaceList

/-!
# Property C130: which interfaces have a broadcast or a destination address
-/

namespace Verif

open Spec Iface

/-- The system gives a broadcast address (flag `0x2`) or a destination address (flag `0x10`) with this entry. -/
def Given (flag : BitVec 32) (e : IfAddrs) : Prop := e.flags &&& flag ≠ 0 ∧ ∃ u, e.ifu = some u

/-- C130, as documented (iface.cpp:520-568): the two functions say whether the address is defined. -/
def C130_claim : Prop :=
  ∀ (es : List IfAddrs) (l : List Iface), (∀ e ∈ es, EntryFamily e) → ofEntries es = .ok l →
    List.Forall₂ (fun e i => (i.hasBroadcastAddress = true ↔ Given 0x2 e) ∧ (i.hasDestinationAddress = true ↔ Given 0x10 e)) (es.filter HasIp) l

theorem describes_has {e : IfAddrs} {i : Iface} (h : Describes e i) :
    (i.hasBroadcastAddress = true ↔ e.flags &&& 0x2 ≠ 0) ∧ (i.hasDestinationAddress = true ↔ e.flags &&& 0x10 ≠ 0) := by
  rw [hasBroadcastAddress, hasDestinationAddress, h.flags, bne_iff_ne, bne_iff_ne]
  exact ⟨Iff.rfl, Iff.rfl⟩

theorem forall2_mono {α β : Type} {R S : α → β → Prop} {l : List α} {m : List β} (h : List.Forall₂ R l m)
    (hi : ∀ a ∈ l, ∀ b, R a b → S a b) : List.Forall₂ S l m := by
  induction h with
  | nil => exact .nil
  | cons h1 _ ih => exact .cons (hi _ List.mem_cons_self _ h1) (ih fun a ha => hi a (List.mem_cons_of_mem _ ha))

/-- C130: the two functions tell the two flags of the interface. When one is false the address is the default one `::`; when it is
true the address is the one of the system, if there is one, and otherwise the default one. -/
theorem C130_flags (es : List IfAddrs) (h : ∀ e ∈ es, EntryFamily e) :
    ∃ l, ofEntries es = .ok l ∧ List.Forall₂ (fun e i =>
      (i.hasBroadcastAddress = true ↔ e.flags &&& 0x2 ≠ 0) ∧ (i.hasDestinationAddress = true ↔ e.flags &&& 0x10 ≠ 0)
        ∧ (i.hasBroadcastAddress = false → ip i.broadcast.getIpv6.addr = 0) ∧ (i.hasDestinationAddress = false → ip i.destination.getIpv6.addr = 0)
        ∧ (i.hasBroadcastAddress = true → ∀ u, e.ifu = some u → (u.in4.family = 2 → Is4 i.broadcast u.in4) ∧ (u.in4.family = 10 → i.broadcast.getIpv6 = u.in6))
        ∧ (i.hasDestinationAddress = true → ∀ u, e.ifu = some u → (u.in4.family = 2 → Is4 i.destination u.in4) ∧ (u.in4.family = 10 → i.destination.getIpv6 = u.in6))
        ∧ (e.ifu = none → ip i.broadcast.getIpv6.addr = 0 ∧ ip i.destination.getIpv6.addr = 0)) (es.filter HasIp) l := by
  obtain ⟨l, h1, h2⟩ := C63_list es h
  have hd : ∀ {a : Addr}, a = Addr.default → ip a.getIpv6.addr = 0 := by
    rintro a rfl
    decide
  refine ⟨l, h1, forall2_mono h2 fun e _ i hi => ?_⟩
  obtain ⟨hb, hc⟩ := describes_has hi
  refine ⟨hb, hc, fun h => hd (hi.broadcast.2 (.inl ?_)), fun h => hd (hi.destination.2 (.inl ?_)), fun h u hu => hi.broadcast.1 u (hb.1 h) hu,
    fun h u hu => hi.destination.1 u (hc.1 h) hu, fun h => ⟨hd (hi.broadcast.2 (.inr h)), hd (hi.destination.2 (.inr h))⟩⟩
  · refine Classical.byContradiction fun hn => ?_
    rw [hb.2 hn] at h
    cases h
  · refine Classical.byContradiction fun hn => ?_
    rw [hc.2 hn] at h
    cases h

/-- C130, where the system gives an address with every entry which has one of the two flags.

Missing from the full statement: the other entries, for which it is false (`C130_claim_fails`). -/
theorem C130_has_partial (es : List IfAddrs) (h : ∀ e ∈ es, EntryFamily e) (hg : ∀ e ∈ es, e.flags &&& 0x12 ≠ 0 → ∃ u, e.ifu = some u) :
    ∃ l, ofEntries es = .ok l ∧
      List.Forall₂ (fun e i => (i.hasBroadcastAddress = true ↔ Given 0x2 e) ∧ (i.hasDestinationAddress = true ↔ Given 0x10 e)) (es.filter HasIp) l := by
  obtain ⟨l, h1, h2⟩ := C63_list es h
  refine ⟨l, h1, forall2_mono h2 fun e he i hi => ?_⟩
  obtain ⟨hb, hc⟩ := describes_has hi
  have hg := hg e (List.mem_filter.1 he).1
  have hand : ∀ x y : BitVec 32, 0x12#32 &&& y = y → x &&& y ≠ 0 → x &&& 0x12 ≠ 0 := by
    intro x y hy hx h0
    refine hx ?_
    have : x &&& y = x &&& 0x12 &&& y := by rw [BitVec.and_assoc, show (0x12 : BitVec 32) &&& y = y from hy]
    rw [this, h0]
    exact BitVec.zero_and
  exact ⟨hb.trans ⟨fun h => ⟨h, hg (hand _ _ (by decide) h)⟩, fun h => h.1⟩, hc.trans ⟨fun h => ⟨h, hg (hand _ _ (by decide) h)⟩, fun h => h.1⟩⟩

/-- The entry of the IPv6 address of an Ethernet interface: the interface broadcasts, but there is no address for it. -/
def ether6 : IfAddrs :=
  { name := "eth0".toList, flags := 0x1043,
    addr := some { in4 := { family := 10, port := 0, addr := #v[0, 0, 0, 0], zero := Vector.replicate 8 0 },
                   in6 := { family := 10, port := 0, flowinfo := 0, scope := 2, addr := #v[0xfe, 0x80, 0, 0, 0, 0, 0, 0, 0, 0, 0, 0, 0, 0, 0, 5] } },
    netmask := none, ifu := none }

theorem ether6_family : ∀ e ∈ [ether6], EntryFamily e := by
  intro e he s hs
  rw [List.mem_singleton] at he
  subst he
  cases hs
  exact ⟨rfl, fun u hu => nomatch hu⟩

/-- C130 is false as documented: an interface with an IPv6 address has no broadcast address, says the comment, but the function says
that it has one. -/
theorem C130_claim_fails : ¬ C130_claim := by
  intro h
  obtain ⟨l, h1, h2⟩ := C130_flags [ether6] ether6_family
  have h3 := h [ether6] l ether6_family h1
  have hf : [ether6].filter HasIp = [ether6] := rfl
  rw [hf] at h2 h3
  cases h2 with
  | cons h2 _ =>
    cases h3 with
    | cons h3 _ =>
      obtain ⟨_, u, hu⟩ := h3.1.1 (h2.1.2 (by decide))
      cases hu

-- C130_has_partial on the sample entries, one of which (a packet socket) is left out.
example : ∃ l, ofEntries [sampleEntries[2]] = .ok l ∧ List.Forall₂ (fun e i => (i.hasBroadcastAddress = true ↔ Given 0x2 e)
    ∧ (i.hasDestinationAddress = true ↔ Given 0x10 e)) ([sampleEntries[2]].filter HasIp) l := by
  refine C130_has_partial _ ?_ ?_
  · intro e he s hs
    rw [List.mem_singleton] at he
    subst he
    cases hs
    exact ⟨rfl, fun u hu => by cases hu; exact ⟨rfl, rfl⟩⟩
  · intro e he _
    rw [List.mem_singleton] at he
    subst he
    exact ⟨_, rfl⟩

end Verif
