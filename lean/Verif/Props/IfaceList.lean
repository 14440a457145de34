import Verif.Lemmas.Iface
import Verif.Props.AddrValue
import Verif.Props.AddrMask
import Verif.Props.Route

/-!
# C63 to C66: the list of the interfaces and the searches in it
-/

namespace Verif

open Spec Iface

/-! ## C63 -/

/-- The entry has an IPv4 (2) or IPv6 (10) address. -/
def HasIp (e : IfAddrs) : Bool :=
  match e.addr with
  | some s => s.in4.family == 2 || s.in4.family == 10
  | none => false

/-- The addresses of an entry are of one family, and the two ways to read the memory agree about it. -/
def EntryFamily (e : IfAddrs) : Prop :=
  ∀ s, e.addr = some s → s.in6.family = s.in4.family ∧ ∀ u, e.ifu = some u → u.in4.family = s.in4.family ∧ u.in6.family = s.in4.family

/-- The object holds this IPv4 address and port. -/
def Is4 (a : Addr) (s : SockaddrIn) : Prop :=
  a.getIpv4 = .ok { family := 2, port := s.port, addr := s.addr, zero := Vector.replicate 8 0 }

/-- An optional address: the one of the entry when the flag is set and the entry has one, otherwise the default `::`. -/
def IsOptional (e : IfAddrs) (flag : BitVec 32) (a : Addr) : Prop :=
  (∀ u, e.flags &&& flag ≠ 0 → e.ifu = some u →
    (u.in4.family = 2 → Is4 a u.in4) ∧ (u.in4.family = 10 → a.getIpv6 = u.in6)) ∧
  (e.flags &&& flag = 0 ∨ e.ifu = none → a = Addr.default)

/-- What an interface of the library says about an entry of the system. -/
structure Describes (e : IfAddrs) (i : Iface) : Prop where
  name : i.name = e.name
  flags : i.flags = e.flags
  address4 : ∀ s, e.addr = some s → s.in4.family = 2 → Is4 i.address s.in4
  address6 : ∀ s, e.addr = some s → s.in4.family = 10 → i.address.getIpv6 = s.in6
  mask4 : ∀ s m, e.addr = some s → s.in4.family = 2 → e.netmask = some m →
    i.address.getMask.toList = List.replicate 12 255 ++ m.in4.addr.toList
  mask6 : ∀ s m, e.addr = some s → s.in4.family = 10 → e.netmask = some m → i.address.getMask = m.in6.addr
  noMask : e.netmask = none → i.address.getMask.toList = List.replicate 16 255 ∧ i.address.maskDefined = false
  broadcast : IsOptional e 0x2 i.broadcast
  destination : IsOptional e 0x10 i.destination

theorem vec4_toList (b : Bytes4) : [b[0], b[1], b[2], b[3]] = b.toList := by
  have hb : b = #v[b[0], b[1], b[2], b[3]] := by
    apply Vector.ext
    intro i hi
    have : i = 0 ∨ i = 1 ∨ i = 2 ∨ i = 3 := by omega
    rcases this with rfl | rfl | rfl | rfl <;> rfl
  rw [hb]
  rfl

theorem optional4 {e : IfAddrs} {flag : BitVec 32} (h : ∀ u, e.ifu = some u → u.in4.family = 2) :
    ∃ a, optionalAddr e.flags flag e.ifu (fun s => Addr.setIpv4 s.in4) = .ok a ∧ IsOptional e flag a := by
  unfold optionalAddr
  by_cases hf : e.flags &&& flag ≠ 0
  · rw [if_pos hf]
    cases hu : e.ifu with
    | none =>
      refine ⟨_, rfl, ?_, fun _ => rfl⟩
      intro u _ h'
      rw [hu] at h'
      cases h'
    | some u =>
      have h2 := h u hu
      obtain ⟨a, h1, h3, -⟩ := C01_ipv4_roundtrip Addr.default u.in4 h2
      refine ⟨a, ?_, ?_, ?_⟩
      · dsimp only
        rw [h1]
        rfl
      · intro v _ hv
        rw [hu] at hv
        cases hv
        refine ⟨fun _ => h3, fun h10 => ?_⟩
        rw [h2] at h10
        exact absurd h10 (by decide)
      · rintro (h | h)
        · exact absurd h hf
        · rw [hu] at h
          cases h
  · rw [if_neg hf]
    refine ⟨_, rfl, fun u h => absurd h hf, fun _ => rfl⟩

theorem optional6 {e : IfAddrs} {flag : BitVec 32} (h : ∀ u, e.ifu = some u → u.in4.family = 10 ∧ u.in6.family = 10) :
    ∃ a, optionalAddr e.flags flag e.ifu (fun s => Addr.setIpv6 s.in6) = .ok a ∧ IsOptional e flag a := by
  unfold optionalAddr
  by_cases hf : e.flags &&& flag ≠ 0
  · rw [if_pos hf]
    cases hu : e.ifu with
    | none =>
      refine ⟨_, rfl, ?_, fun _ => rfl⟩
      intro u _ h'
      rw [hu] at h'
      cases h'
    | some u =>
      obtain ⟨h2, h2'⟩ := h u hu
      obtain ⟨a, h1, h3, -⟩ := C02_ipv6_roundtrip Addr.default u.in6 h2'
      refine ⟨a, ?_, ?_, ?_⟩
      · dsimp only
        rw [h1]
        rfl
      · intro v _ hv
        rw [hu] at hv
        cases hv
        refine ⟨fun h10 => ?_, fun _ => h3⟩
        rw [h2] at h10
        exact absurd h10 (by decide)
      · rintro (h | h)
        · exact absurd h hf
        · rw [hu] at h
          cases h
  · rw [if_neg hf]
    refine ⟨_, rfl, fun u h => absurd h hf, fun _ => rfl⟩

theorem ofEntry_describes {e : IfAddrs} (h : EntryFamily e) :
    (HasIp e = false ∧ ofEntry e = .ok none) ∨ (HasIp e = true ∧ ∃ i, ofEntry e = .ok (some i) ∧ Describes e i) := by
  unfold ofEntry HasIp
  cases ha : e.addr with
  | none => exact Or.inl ⟨rfl, rfl⟩
  | some s =>
    obtain ⟨h6, hu⟩ := h s ha
    dsimp only
    by_cases h4 : s.in4.family = 2
    · right
      refine ⟨by simp [h4], ?_⟩
      rw [if_pos (show s.in4.family = AF_INET from h4)]
      obtain ⟨a, a1, a2, -, -, -, -, -, -, -, a3⟩ := C01_ipv4_roundtrip Addr.default s.in4 h4
      obtain ⟨b, b1, b2⟩ := optional4 (flag := IFF_BROADCAST) (e := e) (fun u h => (hu u h).1.trans h4)
      obtain ⟨d, d1, d2⟩ := optional4 (flag := IFF_POINTOPOINT) (e := e) (fun u h => (hu u h).1.trans h4)
      rw [a1, b1, d1]
      simp only [addrOf, Res.bind_ok]
      refine ⟨_, rfl, ?_⟩
      have no6 : s.in4.family ≠ 10 := by rw [h4]; decide
      refine ⟨rfl, rfl, ?_, ?_, ?_, ?_, ?_, b2, d2⟩
      · intro s' e' _
        rw [ha] at e'
        cases e'
        cases e.netmask with
        | none => exact a2
        | some m => exact a2
      · intro s' e' h10
        rw [ha] at e'
        cases e'
        exact absurd h10 no6
      · intro s' m e' _ hm
        rw [hm]
        rw [← vec4_toList m.in4.addr]
        rfl
      · intro s' m e' h10
        rw [ha] at e'
        cases e'
        exact absurd h10 no6
      · intro hm
        rw [hm]
        refine ⟨?_, ?_⟩
        · show a.mask.toList = _
          rw [a3.mask]
          rfl
        · show a.maskDefined = _
          rw [a3.maskDefined]
          rfl
    · by_cases h10 : s.in4.family = 10
      · right
        refine ⟨by simp [h10], ?_⟩
        rw [if_neg (show ¬ s.in4.family = AF_INET from h4), if_pos (show s.in4.family = AF_INET6 from h10)]
        obtain ⟨a, a1, a2, a3⟩ := C02_ipv6_roundtrip Addr.default s.in6 (h6.trans h10)
        obtain ⟨b, b1, b2⟩ := optional6 (flag := IFF_BROADCAST) (e := e)
          (fun u h => ⟨(hu u h).1.trans h10, (hu u h).2.trans h10⟩)
        obtain ⟨d, d1, d2⟩ := optional6 (flag := IFF_POINTOPOINT) (e := e)
          (fun u h => ⟨(hu u h).1.trans h10, (hu u h).2.trans h10⟩)
        rw [a1, b1, d1]
        simp only [addrOf, Res.bind_ok]
        refine ⟨_, rfl, ?_⟩
        refine ⟨rfl, rfl, ?_, ?_, ?_, ?_, ?_, b2, d2⟩
        · intro s' e' h
          rw [ha] at e'
          cases e'
          exact absurd h h4
        · intro s' e' _
          rw [ha] at e'
          cases e'
          cases e.netmask with
          | none => exact a2
          | some m => exact a2
        · intro s' m e' h
          rw [ha] at e'
          cases e'
          exact absurd h h4
        · intro s' m e' _ hm
          rw [hm]
          rfl
        · intro hm
          rw [hm]
          refine ⟨?_, ?_⟩
          · show a.mask.toList = _
            rw [a3.mask]
            rfl
          · show a.maskDefined = _
            rw [a3.maskDefined]
            rfl
      · left
        refine ⟨by simp; exact ⟨h4, h10⟩, ?_⟩
        rw [if_neg (show ¬ s.in4.family = AF_INET from h4), if_neg (show ¬ s.in4.family = AF_INET6 from h10)]

/-- **C63**: one interface per entry which has an IPv4 or IPv6 address, in the order of the system, with its name, flags, address,
mask, broadcast and destination addresses. -/
theorem C63_list (es : List IfAddrs) (h : ∀ e ∈ es, EntryFamily e) :
    ∃ l, ofEntries es = .ok l ∧ List.Forall₂ Describes (es.filter HasIp) l := by
  induction es with
  | nil => exact ⟨[], rfl, .nil⟩
  | cons e es ih =>
    obtain ⟨l, hl, hd⟩ := ih (fun x hx => h x (List.mem_cons_of_mem _ hx))
    rcases ofEntry_describes (h e List.mem_cons_self) with ⟨h1, h2⟩ | ⟨h1, i, h2, h3⟩
    · refine ⟨l, ?_, ?_⟩
      · rw [ofEntries, h2, hl]; rfl
      · rw [List.filter_cons_of_neg (by simp [h1])]; exact hd
    · refine ⟨i :: l, ?_, ?_⟩
      · rw [ofEntries, h2, hl]; rfl
      · rw [List.filter_cons_of_pos h1]; exact .cons h3 hd

/-- A loopback, a packet socket and an Ethernet interface. -/
def sampleEntries : List IfAddrs :=
  let s4 (b : Bytes4) : SockaddrAny :=
    { in4 := { family := 2, port := 0, addr := b, zero := Vector.replicate 8 0 }, in6 := { initIn6 with family := 2 } }
  [{ name := "lo".toList, flags := 0x49, addr := some (s4 #v[127, 0, 0, 1]), netmask := some (s4 #v[255, 0, 0, 0]),
     ifu := some (s4 #v[127, 0, 0, 1]) },
   { name := "eth0".toList, flags := 0x43,
     addr := some { in4 := { family := 17, port := 0, addr := #v[0, 0, 0, 0], zero := Vector.replicate 8 0 },
                    in6 := { initIn6 with family := 17 } }, netmask := none, ifu := none },
   { name := "eth0".toList, flags := 0x43, addr := some (s4 #v[10, 1, 2, 3]), netmask := some (s4 #v[255, 255, 0, 0]),
     ifu := some (s4 #v[10, 1, 255, 255]) }]

example : (∀ e ∈ sampleEntries, EntryFamily e) ∧ (sampleEntries.filter HasIp).length = 2 := by
  refine ⟨?_, by decide⟩
  intro e he
  simp only [sampleEntries, List.mem_cons, List.not_mem_nil, or_false] at he
  rcases he with rfl | rfl | rfl
  all_goals
    intro s hs
    cases hs
    refine ⟨rfl, fun u hu => ?_⟩
    first
      | (cases hu; exact ⟨rfl, rfl⟩)
      | exact nomatch hu

/-- **C63**: whatever the entries there is no undefined behaviour, and the only exception is the one of `set_ipv4()` and
`set_ipv6()` for a structure of another family. -/
theorem C63_no_ub (es : List IfAddrs) : (∃ l, ofEntries es = .ok l) ∨ ofEntries es = .throw .invalidArgument := by
  have set4 : ∀ s : SockaddrIn, (∃ a, addrOf (Addr.setIpv4 s Addr.default) = .ok a) ∨
      addrOf (Addr.setIpv4 s Addr.default) = .throw .invalidArgument := by
    intro s
    by_cases h : s.family = 2
    · obtain ⟨a, h1, -⟩ := C01_ipv4_roundtrip Addr.default s h
      exact Or.inl ⟨a, by rw [h1]; rfl⟩
    · right
      rw [(C01_ipv4_refused Addr.default s h).1]
      rfl
  have set6 : ∀ s : SockaddrIn6, (∃ a, addrOf (Addr.setIpv6 s Addr.default) = .ok a) ∨
      addrOf (Addr.setIpv6 s Addr.default) = .throw .invalidArgument := by
    intro s
    by_cases h : s.family = 10
    · obtain ⟨a, h1, -⟩ := C02_ipv6_roundtrip Addr.default s h
      exact Or.inl ⟨a, by rw [h1]; rfl⟩
    · right
      rw [(C02_ipv6_refused Addr.default s h).1]
      rfl
  have opt : ∀ (flags flag : BitVec 32) (ifu : Option SockaddrAny) (set : SockaddrAny → SM Addr Unit),
      (∀ s, (∃ a, addrOf (set s Addr.default) = .ok a) ∨ addrOf (set s Addr.default) = .throw .invalidArgument) →
      (∃ a, optionalAddr flags flag ifu set = .ok a) ∨ optionalAddr flags flag ifu set = .throw .invalidArgument := by
    intro flags flag ifu set h
    unfold optionalAddr
    split
    · split
      · exact h _
      · exact Or.inl ⟨_, rfl⟩
    · exact Or.inl ⟨_, rfl⟩
  have one : ∀ e, (∃ i, ofEntry e = .ok i) ∨ ofEntry e = .throw .invalidArgument := by
    intro e
    unfold ofEntry
    split
    · exact Or.inl ⟨_, rfl⟩
    · split
      · rcases set4 (‹SockaddrAny›).in4 with ⟨a, h1⟩ | h1
        · rcases opt e.flags IFF_BROADCAST e.ifu (fun s => Addr.setIpv4 s.in4) (fun s => set4 s.in4) with ⟨b, h2⟩ | h2
          · rcases opt e.flags IFF_POINTOPOINT e.ifu (fun s => Addr.setIpv4 s.in4) (fun s => set4 s.in4) with ⟨d, h3⟩ | h3
            · rw [h1, h2, h3]; exact Or.inl ⟨_, rfl⟩
            · rw [h1, h2, h3]; exact Or.inr rfl
          · rw [h1, h2]; exact Or.inr rfl
        · rw [h1]; exact Or.inr rfl
      · split
        · rcases set6 (‹SockaddrAny›).in6 with ⟨a, h1⟩ | h1
          · rcases opt e.flags IFF_BROADCAST e.ifu (fun s => Addr.setIpv6 s.in6) (fun s => set6 s.in6) with ⟨b, h2⟩ | h2
            · rcases opt e.flags IFF_POINTOPOINT e.ifu (fun s => Addr.setIpv6 s.in6) (fun s => set6 s.in6) with ⟨d, h3⟩ | h3
              · rw [h1, h2, h3]; exact Or.inl ⟨_, rfl⟩
              · rw [h1, h2, h3]; exact Or.inr rfl
            · rw [h1, h2]; exact Or.inr rfl
          · rw [h1]; exact Or.inr rfl
        · exact Or.inl ⟨_, rfl⟩
  induction es with
  | nil => exact Or.inl ⟨_, rfl⟩
  | cons e es ih =>
    rw [ofEntries]
    rcases one e with ⟨i, h1⟩ | h1
    · rw [h1]
      rcases ih with ⟨l, h2⟩ | h2
      · rw [h2]; exact Or.inl ⟨_, rfl⟩
      · rw [h2]; exact Or.inr rfl
    · rw [h1]; exact Or.inr rfl

/-! ## C64 -/

/-- The address is in the network of the interface: it has the same bits wherever the mask is set. -/
def InNetwork (i : Iface) (a : Addr) : Prop :=
  ∀ n, n < 128 → (ip i.address.getMask).testBit n = true → (ip i.address.getIpv6.addr).testBit n = (ip a.getIpv6.addr).testBit n

theorem inNetwork_iff (i : Iface) (a : Addr) : i.address.matchAddr a = true ↔ InNetwork i a := C11_match_bits i.address a

/-- The claim of C64: no undefined behaviour. -/
def C64_claim : Prop :=
  ∀ (interfaces : Option (List Iface)) (file : Str) (a : Addr) (allow : Bool) (w : UB),
    findAddrInterface interfaces file a allow ≠ .ub w

/-- C64 is false: when `getifaddrs()` fails `get_local_addresses()` returns a null pointer, which is dereferenced. -/
theorem C64_claim_fails : ¬ C64_claim := fun h => h none [] Addr.default false .nullDereference rfl

/-- **C64**: the first interface whose network has the address, whatever the routes and the last argument. -/
theorem C64_first_partial (pre post : List Iface) (i : Iface) (file : Str) (a : Addr) (allow : Bool)
    (hpre : ∀ j ∈ pre, ¬ InNetwork j a) (hi : InNetwork i a) :
    findAddrInterface (some (pre ++ i :: post)) file a allow = .ok (some i) := by
  have : (pre ++ i :: post).find? (fun i => i.address.matchAddr a) = some i := by
    rw [List.find?_append, List.find?_cons_of_pos (p := fun i : Iface => i.address.matchAddr a) ((inNetwork_iff i a).2 hi)]
    rw [List.find?_eq_none.2 fun j hj h => hpre j hj ((inNetwork_iff j a).1 h)]
    rfl
  unfold findAddrInterface
  dsimp only
  rw [this]

theorem find_none {l : List Iface} {a : Addr} (h : ∀ j ∈ l, ¬ InNetwork j a) : l.find? (fun i => i.address.matchAddr a) = none :=
  List.find?_eq_none.2 fun j hj hm => h j hj ((inNetwork_iff j a).1 hm)

/-- **C64**: an address which is in the network of no interface has no interface, unless the default route is allowed. -/
theorem C64_none (l : List Iface) (file : Str) (a : Addr) (h : ∀ j ∈ l, ¬ InNetwork j a) :
    findAddrInterface (some l) file a false = .ok none := by
  unfold findAddrInterface
  dsimp only
  rw [find_none h]
  rfl

/-- **C64**: with the default route allowed, an address which is in the network of no interface has the first interface with the
name of the first route to `0.0.0.0`. -/
theorem C64_default_partial (l : List Iface) (pad : Nat) (rs : List (KernelRoute × Nat)) (a : Addr) (h : ∀ j ∈ l, ¬ InNetwork j a)
    (hr : ∀ r ∈ rs, KernelRouteOk r.1 ∧ r.1.flags.toNat < 0xA000) :
    ((∀ k ∈ rs, k.1.destination ≠ #v[0, 0, 0, 0]) → findAddrInterface (some l) (routeTable pad rs) a true = .ok none) ∧
    ∀ pre k post, rs = pre ++ k :: post → (∀ x ∈ pre, x.1.destination ≠ #v[0, 0, 0, 0]) → k.1.destination = #v[0, 0, 0, 0] →
      ((∀ i ∈ l, i.name ≠ k.1.iface) → findAddrInterface (some l) (routeTable pad rs) a true = .ok none) ∧
      ∀ lpre i lpost, l = lpre ++ i :: lpost → (∀ j ∈ lpre, j.name ≠ k.1.iface) → i.name = k.1.iface →
        findAddrInterface (some l) (routeTable pad rs) a true = .ok (some i) := by
  obtain ⟨routes, h1, h2, h3⟩ := C62_default_route_partial pad rs hr
  unfold findAddrInterface
  dsimp only
  rw [find_none h, h1]
  simp only [Bool.not_true, Bool.false_eq_true, if_false]
  refine ⟨?_, ?_⟩
  · intro hn
    rw [Res.bind_ok, h2 hn]
  · intro pre k post e hpre hk
    obtain ⟨r, hr1, hr2⟩ := h3 pre k post e hpre hk
    rw [Res.bind_ok, hr1]
    dsimp only
    rw [hr2.name]
    refine ⟨?_, ?_⟩
    · intro hn
      rw [List.find?_eq_none.2]
      · intro i hi he
        exact hn i hi (by simpa using he)
    · rintro lpre i lpost rfl hl hi
      rw [List.find?_append, List.find?_cons_of_pos (by simpa using hi), List.find?_eq_none.2]
      · rfl
      · intro j hj he
        exact hl j hj (by simpa using he)

/-! ## C65 -/

/-- The claim of C65: `is_broadcast_address()` tells whether an IPv4 address is the broadcast address of an interface. -/
def C65_claim : Prop :=
  ∀ (l : List Iface) (a : Addr), a.isIpv4 = true →
    (isBroadcastAddress (some l) a = .ok true ↔ ∃ i ∈ l, ip i.broadcast.getIpv6.addr = ip a.getIpv6.addr)

/-- An interface with the address 10.x.y.z, the mask 255.m.0.0, and its broadcast address. -/
def iface10 (x y z m : Byte) (bx bz : Byte) : Iface :=
  { name := "eth0".toList, flags := 0x43,
    address := { sampleAddr #v[0, 0, 0, 0, 0, 0, 0, 0, 0, 0, 255, 255, 10, x, y, z] with
      mask := #v[255, 255, 255, 255, 255, 255, 255, 255, 255, 255, 255, 255, 255, m, 0, 0] },
    broadcast := sampleAddr #v[0, 0, 0, 0, 0, 0, 0, 0, 0, 0, 255, 255, 10, bx, 255, bz],
    destination := Addr.default }

/-- C65 is false: only the first interface whose network has the address is looked at. With 10.0.0.1/8 before 10.1.2.3/16,
10.1.255.255 is not reported. -/
theorem C65_claim_fails : ¬ C65_claim := by
  intro h
  have h1 := (h [iface10 0 0 1 0 255 255, iface10 1 2 3 255 1 255]
    (sampleAddr #v[0, 0, 0, 0, 0, 0, 0, 0, 0, 0, 255, 255, 10, 1, 255, 255]) (by decide +kernel)).2
      ⟨_, List.mem_cons_of_mem _ List.mem_cons_self, by decide +kernel⟩
  revert h1
  decide +kernel

example : InNetwork (iface10 1 2 3 255 1 255) (sampleAddr #v[0, 0, 0, 0, 0, 0, 0, 0, 0, 0, 255, 255, 10, 1, 9, 9]) ∧
    ¬ InNetwork (iface10 1 2 3 255 1 255) (sampleAddr #v[0, 0, 0, 0, 0, 0, 0, 0, 0, 0, 255, 255, 10, 2, 9, 9]) := by
  rw [← inNetwork_iff, ← inNetwork_iff]
  decide +kernel

/-- **C65**, exactly: the broadcast address of the first interface whose network has it. -/
theorem C65_first_partial (pre post : List Iface) (i : Iface) (a : Addr) (ha : isV4 (ip a.getIpv6.addr))
    (hpre : ∀ j ∈ pre, ¬ InNetwork j a) (hi : InNetwork i a) :
    ∃ b, isBroadcastAddress (some (pre ++ i :: post)) a = .ok b ∧ (b = true ↔ ip i.broadcast.getIpv6.addr = ip a.getIpv6.addr) := by
  refine ⟨i.broadcast.eq a, ?_, (C04_comparisons _ _).1⟩
  unfold isBroadcastAddress
  rw [(C02_get_ipv4_iff_mapped a).1.2 ha, C64_first_partial pre post i [] a false hpre hi]
  rfl

/-- **C65**: the claim holds when no other network has the address and broadcast addresses are in the network of their
interface. -/
theorem C65_disjoint (l : List Iface) (a : Addr) (ha : isV4 (ip a.getIpv6.addr))
    (hd : ∀ i ∈ l, ∀ j ∈ l, InNetwork i a → InNetwork j a → i = j)
    (hb : ∀ i ∈ l, ip i.broadcast.getIpv6.addr = ip a.getIpv6.addr → InNetwork i a) :
    isBroadcastAddress (some l) a = .ok true ↔ ∃ i ∈ l, ip i.broadcast.getIpv6.addr = ip a.getIpv6.addr := by
  by_cases hn : ∀ j ∈ l, ¬ InNetwork j a
  · have : isBroadcastAddress (some l) a = .ok false := by
      unfold isBroadcastAddress
      rw [(C02_get_ipv4_iff_mapped a).1.2 ha, C64_none l [] a hn]
      rfl
    rw [this]
    constructor
    · intro h; cases h
    · rintro ⟨i, hi, he⟩
      exact absurd (hb i hi he) (hn i hi)
  · obtain ⟨i, hfi⟩ : ∃ i, l.find? (fun i => i.address.matchAddr a) = some i := by
      cases hf : l.find? (fun i => i.address.matchAddr a) with
      | some i => exact ⟨i, rfl⟩
      | none => exact absurd (fun j hj h => List.find?_eq_none.1 hf j hj ((inNetwork_iff j a).2 h)) hn
    have hm : i ∈ l := List.mem_of_find?_eq_some hfi
    have hin : InNetwork i a := (inNetwork_iff i a).1 (List.find?_some (p := fun i : Iface => i.address.matchAddr a) hfi)
    have : isBroadcastAddress (some l) a = .ok (i.broadcast.eq a) := by
      unfold isBroadcastAddress findAddrInterface
      rw [(C02_get_ipv4_iff_mapped a).1.2 ha]
      dsimp only [Bool.not_true]
      rw [hfi]
      rfl
    rw [this]
    constructor
    · intro h
      exact ⟨i, hm, (C04_comparisons _ _).1.1 (Res.ok.inj h)⟩
    · rintro ⟨j, hj, he⟩
      obtain rfl := hd i hm j hj hin (hb j hj he)
      rw [(C04_comparisons _ _).1.2 he]

/-- **C65**: an IPv6 address is never a broadcast address, the interfaces are not even asked for. -/
theorem C65_ipv6 (l : Option (List Iface)) (a : Addr) (ha : ¬ isV4 (ip a.getIpv6.addr)) : isBroadcastAddress l a = .ok false := by
  unfold isBroadcastAddress
  have : a.isIpv4 = false := by
    rw [← Bool.not_eq_true]
    exact fun h => ha ((C02_get_ipv4_iff_mapped a).1.1 h)
  rw [this]
  rfl

example : isBroadcastAddress (some [iface10 1 2 3 255 1 255])
    (sampleAddr #v[0, 0, 0, 0, 0, 0, 0, 0, 0, 0, 255, 255, 10, 1, 255, 255]) = .ok true := by decide +kernel

/-! ## C66 -/

/-- The claim of C66: `get_interface_name_index()` lists all the interfaces. -/
def C66_claim : Prop :=
  ∀ (nameOf : Nat → Option Str) (n : Nat) (name : Str), 1 ≤ n → n ≤ 4294967295 → nameOf n = some name → (n, name) ∈ nameIndex nameOf

/-- C66 is false: the list stops at the first index which is not an interface (one was removed, for instance). -/
theorem C66_claim_fails : ¬ C66_claim := by
  intro h
  have := h (fun n => if n = 2 then some "eth0".toList else none) 2 "eth0".toList (by decide) (by decide) rfl
  have e : nameIndex (fun n => if n = 2 then some "eth0".toList else none) = [] := by
    unfold nameIndex
    rw [show (4294967295 : Nat) = 4294967294 + 1 from rfl, nameIndexLoop]
    rfl
  rw [e] at this
  cases this

theorem nameIndexLoop_mem (nameOf : Nat → Option Str) : ∀ (fuel i n : Nat) (name : Str),
    (n, name) ∈ nameIndexLoop nameOf fuel i ↔
      i ≤ n ∧ n < i + fuel ∧ nameOf n = some name ∧ ∀ k, i ≤ k → k < n → nameOf k ≠ none
  | 0, i, n, name => by
    rw [nameIndexLoop]
    constructor
    · intro h; cases h
    · rintro ⟨h1, h2, -⟩; omega
  | fuel + 1, i, n, name => by
    rw [nameIndexLoop]
    cases hi : nameOf i with
    | none =>
      dsimp only
      constructor
      · intro h; cases h
      · rintro ⟨h1, h2, h3, h4⟩
        by_cases e : i = n
        · rw [← e, hi] at h3; cases h3
        · exact absurd hi (h4 i (Nat.le_refl _) (by omega))
    | some m =>
      dsimp only
      rw [List.mem_cons, nameIndexLoop_mem nameOf fuel (i + 1) n name]
      constructor
      · rintro (h | ⟨h1, h2, h3, h4⟩)
        · cases h
          exact ⟨Nat.le_refl _, by omega, hi, fun k h1 h2 => by omega⟩
        · refine ⟨by omega, by omega, h3, fun k hk1 hk2 => ?_⟩
          by_cases e : k = i
          · rw [e, hi]; exact fun h => nomatch h
          · exact h4 k (by omega) hk2
      · rintro ⟨h1, h2, h3, h4⟩
        by_cases e : n = i
        · subst e
          rw [hi] at h3
          cases h3
          exact Or.inl rfl
        · exact Or.inr ⟨by omega, by omega, h3, fun k hk1 hk2 => h4 k (by omega) hk2⟩

/-- **C66**, exactly: the interfaces before the first index which is not an interface. -/
theorem C66_name_index_partial (nameOf : Nat → Option Str) (n : Nat) (name : Str) :
    (n, name) ∈ nameIndex nameOf ↔
      1 ≤ n ∧ n ≤ 4294967295 ∧ nameOf n = some name ∧ ∀ k, 1 ≤ k → k < n → nameOf k ≠ none := by
  unfold nameIndex
  rw [nameIndexLoop_mem]
  constructor
  · rintro ⟨h1, h2, h3⟩; exact ⟨h1, by omega, h3⟩
  · rintro ⟨h1, h2, h3⟩; exact ⟨h1, by omega, h3⟩

/-- **C66**: the indexes are in increasing order, each once. -/
theorem C66_sorted (nameOf : Nat → Option Str) : (nameIndex nameOf).Pairwise fun x y => x.1 < y.1 := by
  unfold nameIndex
  generalize 4294967295 = fuel
  generalize 1 = i
  induction fuel generalizing i with
  | zero => exact List.Pairwise.nil
  | succ fuel ih =>
    rw [nameIndexLoop]
    split
    · exact List.Pairwise.nil
    · refine List.Pairwise.cons ?_ (ih _)
      rintro ⟨n, name⟩ h
      have := ((nameIndexLoop_mem nameOf fuel (i + 1) n name).1 h).1
      show i < n
      omega

end Verif
