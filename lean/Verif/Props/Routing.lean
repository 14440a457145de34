import Verif.Props.IfaceList
import Verif.SpecRouting
import Verif.SpecParse

/-!
# Property C142: the interface of an IPv4 address is the one through which the kernel sends to it
-/

namespace Verif

open Spec Iface

/-- The kernel's own route of an interface which has an IPv4 address and a mask which is not 0.0.0.0: the network of the address. -/
def RouteOf (k : KernelRoute) (i : Iface) : Prop :=
  k.iface = i.name ∧ k.mask ≠ #v[0, 0, 0, 0] ∧ ∃ c : Bytes4, i.address.getIpv6.addr = mapped c
    ∧ i.address.getMask = (#v[255, 255, 255, 255, 255, 255, 255, 255, 255, 255, 255, 255, k.mask[0], k.mask[1], k.mask[2], k.mask[3]] : Bytes16)
    ∧ k.destination = #v[c[0] &&& k.mask[0], c[1] &&& k.mask[1], c[2] &&& k.mask[2], c[3] &&& k.mask[3]]

/-- There is no IPv4 address in the network of the interface. -/
def NotV4 (i : Iface) : Prop := ∀ (a : Addr) (b : Bytes4), a.getIpv6.addr = mapped b → i.address.matchAddr a = false

/-- The interfaces and the routes of a machine: each interface with an IPv4 address has the route of its network. -/
def Connected (l : List Iface) (rs : List KernelRoute) : Prop := ∀ i ∈ l, NotV4 i ∨ ∃ k ∈ rs, RouteOf k i

/-- The claim: `find_addr_interface()` returns an interface with the name of the one which the kernel uses. -/
def C142_claim : Prop := ∀ (l : List Iface) (pad : Nat) (rs : List (KernelRoute × Nat)) (a : Addr) (b : Bytes4) (k : KernelRoute),
  (∀ r ∈ rs, KernelRouteOk r.1 ∧ r.1.flags.toNat < 0xA000) → Connected l (rs.map (·.1)) → a.getIpv6.addr = mapped b →
    RouteTaken (rs.map (·.1)) b k → (∃ i ∈ l, i.name = k.iface) →
      ∃ i ∈ l, findAddrInterface (some l) (routeTable pad rs) a true = .ok (some i) ∧ i.name = k.iface

theorem routeOf_match {k : KernelRoute} {i : Iface} (h : RouteOf k i) {a : Addr} {b : Bytes4} (ha : a.getIpv6.addr = mapped b) :
    i.address.matchAddr a = true ↔ RouteFor k b := by
  obtain ⟨_, _, c, h1, h2, h3⟩ := h
  have h1 : i.address.bytes = mapped c := h1
  have h2 : i.address.mask = _ := h2
  have ha : a.bytes = mapped b := ha
  rw [Addr.matchAddr, if_neg (by simp), h1, h2, ha, RouteFor, h3]
  have hr : List.range 16 = [0, 1, 2, 3, 4, 5, 6, 7, 8, 9, 10, 11, 12, 13, 14, 15] := by decide
  rw [hr]
  simp only [mapped, List.all_cons, List.all_nil, Bool.and_eq_true, beq_iff_eq, List.getD_cons_zero, List.getD_cons_succ]
  simp
  constructor
  · rintro ⟨g0, g1, g2, g3⟩
    exact ⟨g0.symm, g1.symm, g2.symm, g3.symm⟩
  · rintro ⟨g0, g1, g2, g3⟩
    exact ⟨g0.symm, g1.symm, g2.symm, g3.symm⟩

/-- The first element with a property. -/
theorem first_with {α : Type} {P : α → Prop} (l : List α) (h : ∃ x ∈ l, P x) : ∃ pre x post, l = pre ++ x :: post ∧ (∀ y ∈ pre, ¬ P y) ∧ P x := by
  induction l with
  | nil => obtain ⟨x, hx, _⟩ := h; cases hx
  | cons y l ih =>
    by_cases hy : P y
    · exact ⟨[], y, l, rfl, (fun z hz => nomatch hz), hy⟩
    · obtain ⟨x, hx, hp⟩ := h
      rcases List.mem_cons.1 hx with rfl | hx
      · exact absurd hp hy
      · obtain ⟨pre, x', post, h1, h2, h3⟩ := ih ⟨x, hx, hp⟩
        refine ⟨y :: pre, x', post, by rw [h1]; rfl, fun z hz => ?_, h3⟩
        rcases List.mem_cons.1 hz with rfl | hz
        · exact hy
        · exact h2 z hz

/-- A default route. -/
def IsDefaultRoute (k : KernelRoute) : Prop := k.destination = #v[0, 0, 0, 0] ∧ k.mask = #v[0, 0, 0, 0]

/-- A machine whose routes are those of the networks of its interfaces and default routes, the networks of different interfaces being apart, and the default routes in the order of their
metrics. -/
structure PlainRoutes (l : List Iface) (rs : List KernelRoute) : Prop where
  routes : ∀ k ∈ rs, IsDefaultRoute k ∨ (k.destination ≠ #v[0, 0, 0, 0] ∧ ∃ i ∈ l, RouteOf k i)
  apart : ∀ i ∈ l, ∀ j ∈ l, ∀ (a : Addr) (b : Bytes4), a.getIpv6.addr = mapped b → InNetwork i a → InNetwork j a → i.name = j.name
  defaults : rs.Pairwise fun k k' => IsDefaultRoute k → IsDefaultRoute k' → k.metric < k'.metric ∨ k.iface = k'.iface

theorem ip4_zero : ip4 #v[0, 0, 0, 0] = 0 := by decide

theorem ip4_pos {m : Bytes4} (h : m ≠ #v[0, 0, 0, 0]) : 0 < ip4 m := by
  refine Nat.pos_of_ne_zero fun h0 => h ?_
  exact Vector.toList_inj.1 (value_inj (by simp) (h0.trans ip4_zero.symm))

theorem routeFor_default {k : KernelRoute} (h : IsDefaultRoute k) (b : Bytes4) : RouteFor k b := by
  rw [RouteFor, h.1, h.2]
  simp

/-- The claim for plain machines. -/
theorem C142_partial (l : List Iface) (pad : Nat) (rs : List (KernelRoute × Nat)) (a : Addr) (b : Bytes4) (k : KernelRoute)
    (hr : ∀ r ∈ rs, KernelRouteOk r.1 ∧ r.1.flags.toNat < 0xA000) (hc : Connected l (rs.map (·.1))) (ha : a.getIpv6.addr = mapped b)
    (hk : RouteTaken (rs.map (·.1)) b k) (hi : ∃ i ∈ l, i.name = k.iface) (hp : PlainRoutes l (rs.map (·.1))) :
    ∃ i ∈ l, findAddrInterface (some l) (routeTable pad rs) a true = .ok (some i) ∧ i.name = k.iface := by
  obtain ⟨hkrs, hkb, hkbest⟩ := hk
  by_cases hn : ∃ j ∈ l, InNetwork j a
  · obtain ⟨pre, j, post, rfl, hpre, hj⟩ := first_with l hn
    have hjl : j ∈ pre ++ j :: post := List.mem_append_right _ List.mem_cons_self
    refine ⟨j, hjl, C64_first_partial pre post j _ a true hpre hj, ?_⟩
    rcases hp.routes k hkrs with hd | ⟨_, i, hil, hki⟩
    · rcases hc j hjl with hv | ⟨k', hk', hkj⟩
      · have := (inNetwork_iff j a).2 hj
        rw [hv a b ha] at this
        exact nomatch this
      · have hb := (routeOf_match hkj ha).1 ((inNetwork_iff j a).2 hj)
        have hpos := ip4_pos hkj.2.1
        have h0 : ip4 k.mask = 0 := by rw [hd.2]; exact ip4_zero
        rcases hkbest k' hk' hb with h | ⟨h, _⟩ <;> omega
    · have := (inNetwork_iff i a).1 ((routeOf_match hki ha).2 hkb)
      exact (hp.apart j hjl i hil a b ha hj this).trans hki.1.symm
  · have hn' : ∀ j ∈ l, ¬ InNetwork j a := fun j hj h => hn ⟨j, hj, h⟩
    have hd : IsDefaultRoute k := by
      rcases hp.routes k hkrs with hd | ⟨_, i, hil, hki⟩
      · exact hd
      · exact absurd ⟨i, hil, (inNetwork_iff i a).1 ((routeOf_match hki ha).2 hkb)⟩ hn
    obtain ⟨x, hx, hxk⟩ := List.mem_map.1 hkrs
    obtain ⟨pre, k0, post, e, hpre, hk0⟩ := first_with (P := fun y : KernelRoute × Nat => y.1.destination = #v[0, 0, 0, 0]) rs
      ⟨x, hx, by rw [hxk]; exact hd.1⟩
    have hk0rs : k0 ∈ rs := by rw [e]; exact List.mem_append_right _ List.mem_cons_self
    have hd0 : IsDefaultRoute k0.1 := by
      rcases hp.routes k0.1 (List.mem_map.2 ⟨k0, hk0rs, rfl⟩) with hd | ⟨h, _⟩
      · exact hd
      · exact absurd hk0 h
    have hname : k0.1.iface = k.iface := by
      have hm : k.metric ≤ k0.1.metric := by
        rcases hkbest k0.1 (List.mem_map.2 ⟨k0, hk0rs, rfl⟩) (routeFor_default hd0 b) with h | ⟨_, h⟩
        · rw [hd.2, hd0.2] at h
          omega
        · exact h
      rw [e] at hx
      rcases List.mem_append.1 hx with h | h
      · exact absurd (by rw [hxk]; exact hd.1) (hpre x h)
      · rcases List.mem_cons.1 h with rfl | h
        · rw [hxk]
        · have hpw := hp.defaults
          rw [e, List.map_append, List.pairwise_append] at hpw
          have := (List.pairwise_cons.1 hpw.2.1).1 x.1 (List.mem_map.2 ⟨x, h, rfl⟩) hd0 (by rw [hxk]; exact hd)
          rw [hxk] at this
          rcases this with h | h
          · have h : k0.1.metric < k.metric := h
            omega
          · exact h
    obtain ⟨lpre, i, lpost, el, hlpre, hie⟩ := first_with (P := fun i : Iface => i.name = k0.1.iface) l (by rw [hname]; exact hi)
    refine ⟨i, by rw [el]; exact List.mem_append_right _ List.mem_cons_self, ?_, hie.trans hname⟩
    exact ((C64_default_partial l pad rs a hn' hr).2 pre k0 post e hpre hk0).2 lpre i lpost el hlpre hie

/-- An address to which the plain machine has no route has no interface. -/
theorem C142_no_route (l : List Iface) (pad : Nat) (rs : List (KernelRoute × Nat)) (a : Addr) (b : Bytes4)
    (hr : ∀ r ∈ rs, KernelRouteOk r.1 ∧ r.1.flags.toNat < 0xA000) (hc : Connected l (rs.map (·.1))) (ha : a.getIpv6.addr = mapped b)
    (hk : ∀ k ∈ rs.map (·.1), ¬ RouteFor k b) (hp : PlainRoutes l (rs.map (·.1))) :
    findAddrInterface (some l) (routeTable pad rs) a true = .ok none := by
  refine (C64_default_partial l pad rs a (fun j hj hin => ?_) hr).1 fun k hkrs hd => ?_
  · rcases hc j hj with hv | ⟨k', hk', hkj⟩
    · have := (inNetwork_iff j a).2 hin
      rw [hv a b ha] at this
      exact nomatch this
    · exact hk k' hk' ((routeOf_match hkj ha).1 ((inNetwork_iff j a).2 hin))
  · rcases hp.routes k.1 (List.mem_map.2 ⟨k, hkrs, rfl⟩) with h | ⟨h, _⟩
    · exact hk k.1 (List.mem_map.2 ⟨k, hkrs, rfl⟩) (routeFor_default h b)
    · exact h hd

/-- A route. -/
def sampleRoute (name : String) (d m : Bytes4) (metric : Int) : KernelRoute :=
  { iface := name.toList, destination := d, gateway := #v[0, 0, 0, 0], flags := 1, refcnt := 0, use := 0, metric := metric, mask := m, mtu := 0,
    window := 0, irtt := 0 }

/-- The interface tun0 with the address 10.8.0.6/16. -/
def sampleTunnel : Iface := { iface10 8 0 6 255 8 255 with name := "tun0".toList }

theorem iface10_route (x y z : Byte) (bx bz : Byte) (metric : Int) (name : String) :
    RouteOf (sampleRoute name #v[10, x, 0, 0] #v[255, 255, 0, 0] metric) { iface10 x y z 255 bx bz with name := name.toList } := by
  refine ⟨rfl, (by show (#v[255, 255, 0, 0] : Bytes4) ≠ _; decide), #v[10, x, y, z], rfl, rfl, ?_⟩
  show (#v[10, x, 0, 0] : Bytes4) = #v[10 &&& 255, x &&& 255, y &&& 0, z &&& 0]
  have h255 : ∀ x : Byte, x &&& 255 = x := fun x => by
    show x &&& BitVec.allOnes 8 = x
    exact BitVec.and_allOnes
  rw [h255 x, show y &&& 0 = 0 from BitVec.and_zero, show z &&& 0 = 0 from BitVec.and_zero]
  rfl

/-- eth0 is 10.1.2.3/16 and has the default route; tun0 is 10.8.0.6/16. -/
def plainTable : List (KernelRoute × Nat) :=
  [(sampleRoute "eth0" #v[0, 0, 0, 0] #v[0, 0, 0, 0] 100, 1), (sampleRoute "eth0" #v[10, 1, 0, 0] #v[255, 255, 0, 0] 100, 1),
   (sampleRoute "tun0" #v[10, 8, 0, 0] #v[255, 255, 0, 0] 0, 1)]

/-- And 172.16.0.0/12 is reached through tun0. -/
def vpnTable : List (KernelRoute × Nat) := plainTable ++ [(sampleRoute "tun0" #v[172, 16, 0, 0] #v[255, 240, 0, 0] 0, 1)]

def sampleMachine : List Iface := [iface10 1 2 3 255 1 255, sampleTunnel]

theorem vpnTable_ok : ∀ r ∈ vpnTable, KernelRouteOk r.1 ∧ r.1.flags.toNat < 0xA000 := by
  unfold KernelRouteOk
  decide +kernel

theorem sampleMachine_connected (rs : List KernelRoute) (h : ∀ r ∈ plainTable, r.1 ∈ rs) : Connected sampleMachine rs := by
  intro i hi
  unfold sampleMachine at hi
  simp only [List.mem_cons, List.not_mem_nil, or_false] at hi
  rcases hi with rfl | rfl
  · exact .inr ⟨_, h _ (List.mem_cons_of_mem _ List.mem_cons_self), iface10_route 1 2 3 1 255 100 "eth0"⟩
  · exact .inr ⟨_, h _ (List.mem_cons_of_mem _ (List.mem_cons_of_mem _ List.mem_cons_self)), iface10_route 8 0 6 8 255 0 "tun0"⟩

/-- The claim is false: routes other than the default one and those of the interfaces are not looked at. -/
theorem C142_claim_fails : ¬ C142_claim := by
  intro hc
  obtain ⟨i, _, h1, h2⟩ := hc sampleMachine 1 vpnTable (sampleV4 172 16 5 5) #v[172, 16, 5, 5] (sampleRoute "tun0" #v[172, 16, 0, 0] #v[255, 240, 0, 0] 0)
    vpnTable_ok (sampleMachine_connected _ (fun r hr => List.mem_map.2 ⟨r, List.mem_append_left _ hr, rfl⟩)) (by decide +kernel)
    ⟨by simp [vpnTable], by unfold RouteFor; decide +kernel, by unfold RouteFor; decide +kernel⟩ ⟨sampleTunnel, by simp [sampleMachine], rfl⟩
  have h3 : (findAddrInterface (some sampleMachine) (routeTable 1 vpnTable) (sampleV4 172 16 5 5) true >>= fun i => .ok (i.map (·.name)))
      = .ok (some "eth0".toList) := by decide +kernel
  rw [h1] at h3
  have h3 : (Res.ok (some i.name) : Res (Option Str)) = .ok (some "eth0".toList) := h3
  injection h3 with h3
  injection h3 with h3
  rw [h2] at h3
  exact absurd h3 (by decide)

/-- Nor is it true when only the networks of the interfaces overlap: the first one is taken, not the one with the most bits. -/
theorem C142_overlap_fails : ∃ (l : List Iface) (rs : List (KernelRoute × Nat)) (a : Addr) (b : Bytes4) (k : KernelRoute),
    (∀ r ∈ rs, ∃ i ∈ l, RouteOf r.1 i) ∧ (∀ i ∈ l, ∃ r ∈ rs, RouteOf r.1 i) ∧ a.getIpv6.addr = mapped b ∧ RouteTaken (rs.map (·.1)) b k
      ∧ ∃ i, findAddrInterface (some l) (routeTable 1 rs) a true = .ok (some i) ∧ i.name ≠ k.iface := by
  have h8 : RouteOf (sampleRoute "eth0" #v[10, 0, 0, 0] #v[255, 0, 0, 0] 0) (iface10 0 0 1 0 255 255) :=
    ⟨rfl, (by show (#v[255, 0, 0, 0] : Bytes4) ≠ _; decide), #v[10, 0, 0, 1], rfl, rfl, by decide⟩
  have h16 := iface10_route 8 0 6 8 255 0 "tun0"
  have ha : (sampleV4 10 8 9 9).getIpv6.addr = mapped #v[10, 8, 9, 9] := by decide +kernel
  refine ⟨[iface10 0 0 1 0 255 255, sampleTunnel], [(sampleRoute "eth0" #v[10, 0, 0, 0] #v[255, 0, 0, 0] 0, 1),
    (sampleRoute "tun0" #v[10, 8, 0, 0] #v[255, 255, 0, 0] 0, 1)], sampleV4 10 8 9 9, #v[10, 8, 9, 9], sampleRoute "tun0" #v[10, 8, 0, 0] #v[255, 255, 0, 0] 0,
    ?_, ?_, ha, ⟨by simp, by unfold RouteFor; decide +kernel, by unfold RouteFor; decide +kernel⟩, iface10 0 0 1 0 255 255, ?_, by decide⟩
  · intro r hr
    simp only [List.mem_cons, List.not_mem_nil, or_false] at hr
    rcases hr with rfl | rfl
    · exact ⟨_, List.mem_cons_self, h8⟩
    · exact ⟨_, List.mem_cons_of_mem _ List.mem_cons_self, h16⟩
  · intro i hi
    simp only [List.mem_cons, List.not_mem_nil, or_false] at hi
    rcases hi with rfl | rfl
    · exact ⟨_, List.mem_cons_self, h8⟩
    · exact ⟨_, List.mem_cons_of_mem _ List.mem_cons_self, h16⟩
  · exact C64_first_partial [] [sampleTunnel] _ _ _ true (fun j hj => nomatch hj)
      ((inNetwork_iff _ _).1 ((routeOf_match h8 ha).2 (by unfold RouteFor; decide)))

/-- The machine without the route to 172.16.0.0/12 is plain. -/
theorem plainTable_plain : PlainRoutes sampleMachine (plainTable.map (·.1)) where
  routes := by
    intro k hk
    simp only [plainTable, List.map_cons, List.map_nil, List.mem_cons, List.not_mem_nil, or_false] at hk
    rcases hk with rfl | rfl | rfl
    · exact .inl ⟨rfl, rfl⟩
    · exact .inr ⟨(by show (#v[10, 1, 0, 0] : Bytes4) ≠ _; decide), _, List.mem_cons_self, iface10_route 1 2 3 1 255 100 "eth0"⟩
    · exact .inr ⟨(by show (#v[10, 8, 0, 0] : Bytes4) ≠ _; decide), _, List.mem_cons_of_mem _ List.mem_cons_self, iface10_route 8 0 6 8 255 0 "tun0"⟩
  apart := by
    intro i hi j hj a b hb h1 h2
    have key : ∀ x y : Byte, x ≠ y → ∀ {n m : String} {y1 z1 y2 z2 c1 c2 d1 d2 : Byte},
        InNetwork { iface10 x y1 z1 255 c1 d1 with name := n.toList } a → InNetwork { iface10 y y2 z2 255 c2 d2 with name := m.toList } a → False := by
      intro x y hxy n m y1 z1 y2 z2 c1 c2 d1 d2 g1 g2
      have e1 := ((routeOf_match (iface10_route x y1 z1 c1 d1 0 n) hb).1 ((inNetwork_iff _ _).2 g1)).2.1
      have e2 := ((routeOf_match (iface10_route y y2 z2 c2 d2 0 m) hb).1 ((inNetwork_iff _ _).2 g2)).2.1
      exact hxy (e1.symm.trans e2)
    unfold sampleMachine at hi hj
    simp only [List.mem_cons, List.not_mem_nil, or_false] at hi hj
    rcases hi with rfl | rfl <;> rcases hj with rfl | rfl
    · rfl
    · exact (key 1 8 (by decide) (n := "eth0") (m := "tun0") h1 h2).elim
    · exact (key 8 1 (by decide) (n := "tun0") (m := "eth0") h1 h2).elim
    · rfl
  defaults := by
    unfold IsDefaultRoute
    decide

example : ∃ i ∈ sampleMachine, findAddrInterface (some sampleMachine) (routeTable 1 plainTable) (sampleV4 172 16 5 5) true = .ok (some i)
    ∧ i.name = "eth0".toList :=
  C142_partial sampleMachine 1 plainTable (sampleV4 172 16 5 5) #v[172, 16, 5, 5] (sampleRoute "eth0" #v[0, 0, 0, 0] #v[0, 0, 0, 0] 100)
    (fun r hr => vpnTable_ok r (List.mem_append_left _ hr)) (sampleMachine_connected _ (fun r hr => List.mem_map.2 ⟨r, hr, rfl⟩)) (by decide +kernel)
    ⟨List.mem_cons_self, by unfold RouteFor; decide +kernel, by unfold RouteFor; decide +kernel⟩ ⟨_, List.mem_cons_self, rfl⟩ plainTable_plain

end Verif
