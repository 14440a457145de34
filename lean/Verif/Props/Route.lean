import Verif.Lemmas.Route
import Verif.Lemmas.Net
import Verif.Props.AddrValue
import Mathlib.Data.List.Forall2

/-!
# C53, C54, C61 and C62: the route table
-/

namespace Verif
open Spec Route

/-! ## C53 -/

/-- **C53**: the text which the kernel prints for any IPv4 address is read as this address. -/
theorem C53_hex_address (b : Bytes4) :
    ∃ a, hexToAddr (hexLittle b) = .ok a ∧
      a.getIpv4 = .ok { family := 2, port := 0, addr := b, zero := Vector.replicate 8 0 } := by
  obtain ⟨a, h1, h2, -⟩ := C01_ipv4_constructor (in4 b) rfl
  exact ⟨a, (hexToAddr_little b).trans h1, h2⟩

example : hexLittle #v[192, 168, 1, 254] = "FE01A8C0".toList := by decide

/-- **C53**: any other text is refused: only eight hexadecimal digits are an address. -/
theorem C53_hex_refused {s : Str}
    (h : s.length ≠ 8 ∨ ∃ c ∈ s, c.isDigit = false ∧ ¬ (65 ≤ c.toNat ∧ c.toNat ≤ 70) ∧ ¬ (97 ≤ c.toNat ∧ c.toNat ≤ 102)) :
    hexToAddr s = .throw .invalidArgument := by
  have bad : ∀ c : Char, c.isDigit = false ∧ ¬ (65 ≤ c.toNat ∧ c.toNat ≤ 70) ∧ ¬ (97 ≤ c.toNat ∧ c.toNat ≤ 102) →
      hexToNumber c = .throw .invalidArgument := by
    rintro c ⟨h1, h2, h3⟩
    have h1' : ¬ (48 ≤ c.toNat ∧ c.toNat ≤ 57) := by
      simp only [Char.isDigit, Bool.and_eq_false_iff, decide_eq_false_iff_not, ge_iff_le, UInt32.le_iff_toNat_le] at h1
      show ¬ (48 ≤ c.val.toNat ∧ c.val.toNat ≤ 57)
      intro hc
      rcases h1 with h1 | h1
      · exact h1 hc.1
      · exact h1 hc.2
    unfold hexToNumber
    exact (if_neg h1').trans ((if_neg h3).trans (if_neg h2))
  have thr : ∀ c : Char, (∃ n, hexToNumber c = .ok n) ∨ hexToNumber c = .throw .invalidArgument := by
    intro c
    unfold hexToNumber
    split
    · exact Or.inl ⟨_, rfl⟩
    · split
      · exact Or.inl ⟨_, rfl⟩
      · split
        · exact Or.inl ⟨_, rfl⟩
        · exact Or.inr rfl
  by_cases hlen : s.length = 8
  · obtain ⟨c, hc, hb⟩ := h.resolve_left (fun h => h hlen)
    have hb := bad c hb
    match s, hlen with
    | [c0, c1, c2, c3, c4, c5, c6, c7], _ =>
      simp only [List.mem_cons, List.not_mem_nil, or_false] at hc
      unfold hexToAddr
      dsimp only
      rcases (thr c7).symm with h7 | ⟨n7, h7⟩
      · rw [h7]; rfl
      rcases (thr c6).symm with h6 | ⟨n6, h6⟩
      · rw [h7, h6]; rfl
      rcases (thr c5).symm with h5 | ⟨n5, h5⟩
      · rw [h7, h6, h5]; rfl
      rcases (thr c4).symm with h4 | ⟨n4, h4⟩
      · rw [h7, h6, h5, h4]; rfl
      rcases (thr c3).symm with h3 | ⟨n3, h3⟩
      · rw [h7, h6, h5, h4, h3]; rfl
      rcases (thr c2).symm with h2 | ⟨n2, h2⟩
      · rw [h7, h6, h5, h4, h3, h2]; rfl
      rcases (thr c1).symm with h1 | ⟨n1, h1⟩
      · rw [h7, h6, h5, h4, h3, h2, h1]; rfl
      rcases (thr c0).symm with h0 | ⟨n0, h0⟩
      · rw [h7, h6, h5, h4, h3, h2, h1, h0]; rfl
      exfalso
      rcases hc with rfl | rfl | rfl | rfl | rfl | rfl | rfl | rfl <;> simp_all
  · unfold hexToAddr
    split
    · exact absurd rfl hlen
    · rfl

example : hexToAddr "0101A8C0 ".toList = .throw .invalidArgument ∧ hexToAddr "G101A8C0".toList = .throw .invalidArgument := by
  decide

/-- What one route of the library says of a route of the kernel, the flags left aside. -/
structure Decodes (k : KernelRoute) (r : Route) : Prop where
  name : r.interfaceName = k.iface
  destination : r.destination.getIpv4 = .ok { family := 2, port := 0, addr := k.destination, zero := Vector.replicate 8 0 }
  mask : r.destination.getMask.toList = List.replicate 12 255 ++ k.mask.toList
  maskDefined : r.destination.maskDefined = true
  gateway : r.gateway.getIpv4 = .ok { family := 2, port := 0, addr := k.gateway, zero := Vector.replicate 8 0 }
  referenceCount : r.referenceCount = k.refcnt
  use : k.use < 2147483648 → r.use = k.use
  metric : r.metric = k.metric
  mtu : r.mtu = k.mtu
  window : k.window < 2147483648 → r.window = k.window
  irtt : k.irtt < 2147483648 → r.irtt = k.irtt
  flags : r.flags = Nat.ofDigitChars 10 ((hex16 k.flags).takeWhile Char.isDigit) 0

theorem toCInt_id {n : Int} (h : IsCInt n) : Addr.toCInt n = n := by
  unfold Addr.toCInt
  obtain ⟨h1, h2⟩ := h
  rw [BitVec.toInt_ofInt]
  exact Int.bmod_eq_of_le (by omega) (by omega)

theorem hexDigitUpper_isDigit : ∀ n : Fin 10, (hexDigitUpper n.val).isDigit = true := by decide +kernel

theorem length_takeWhile_le' (p : Char → Bool) (l : Str) : (l.takeWhile p).length ≤ l.length :=
  (List.takeWhile_sublist p).length_le

theorem digits4_le {d : Str} (h : d.length ≤ 4) (hd : ∀ c ∈ d, c.isDigit = true) : Nat.ofDigitChars 10 d 0 ≤ 9999 := by
  have hv : ∀ c : Char, c.isDigit = true → c.toNat - 48 ≤ 9 := by
    intro c hc
    simp only [Char.isDigit, Bool.and_eq_true, decide_eq_true_eq, UInt32.le_iff_toNat_le] at hc
    have : c.toNat ≤ 57 := hc.2
    omega
  match d, h, hd with
  | [], _, _ => simp
  | [a], _, hd =>
    have := hv a (hd a (by simp))
    simp only [Nat.ofDigitChars_cons, Nat.ofDigitChars_nil, show '0'.toNat = 48 from rfl]
    omega
  | [a, b], _, hd =>
    have := hv a (hd a (by simp))
    have := hv b (hd b (by simp))
    simp only [Nat.ofDigitChars_cons, Nat.ofDigitChars_nil, show '0'.toNat = 48 from rfl]
    omega
  | [a, b, c], _, hd =>
    have := hv a (hd a (by simp))
    have := hv b (hd b (by simp))
    have := hv c (hd c (by simp))
    simp only [Nat.ofDigitChars_cons, Nat.ofDigitChars_nil, show '0'.toNat = 48 from rfl]
    omega
  | [a, b, c, e], _, hd =>
    have := hv a (hd a (by simp))
    have := hv b (hd b (by simp))
    have := hv c (hd c (by simp))
    have := hv e (hd e (by simp))
    simp only [Nat.ofDigitChars_cons, Nat.ofDigitChars_nil, show '0'.toNat = 48 from rfl]
    omega

theorem stol_flags (f : BitVec 16) (h : f.toNat < 0xA000) :
    stol (hex16 f) = .ok (Nat.ofDigitChars 10 ((hex16 f).takeWhile Char.isDigit) 0) := by
  have hs : hex16 f = (hex16 f).takeWhile Char.isDigit ++ (hex16 f).dropWhile Char.isDigit :=
    (List.takeWhile_append_dropWhile).symm
  have hall : ∀ c ∈ (hex16 f).takeWhile Char.isDigit, c.isDigit = true := fun c hc => List.all_eq_true.1 List.all_takeWhile c hc
  have := stol_digits (d := (hex16 f).takeWhile Char.isDigit) ?_ hall ((hex16 f).dropWhile Char.isDigit) ?_ ?_
  · rwa [← hs] at this
  · have hd : (hexDigitUpper (((f >>> 8).setWidth 8).toNat / 16)).isDigit = true := by
      refine hexDigitUpper_isDigit ⟨((f >>> 8).setWidth 8).toNat / 16, ?_⟩
      have h2 := f.isLt
      simp only [BitVec.toNat_setWidth, BitVec.toNat_ushiftRight, Nat.shiftRight_eq_div_pow]
      omega
    show List.takeWhile Char.isDigit (hexDigitUpper (((f >>> 8).setWidth 8).toNat / 16) :: _) ≠ []
    rw [List.takeWhile_cons_of_pos hd]
    simp
  · intro c t hc
    have := List.head?_dropWhile_not (p := Char.isDigit) (hex16 f)
    rw [hc] at this
    simpa using this
  · refine Nat.le_trans (digits4_le ?_ hall) (by decide)
    exact Nat.le_trans (length_takeWhile_le' _ _) (Nat.le_of_eq rfl)

/-- The words of a line. -/
def lineWords (k : KernelRoute) : List Str :=
  [k.iface, hexLittle k.destination, hexLittle k.gateway, hex16 k.flags, signedStr k.refcnt, dec k.use,
   signedStr k.metric, hexLittle k.mask, signedStr k.mtu, dec k.window, dec k.irtt]

/-- The columns. -/
def columns : List Str :=
  ["Iface".toList, "Destination".toList, "Gateway".toList, "Flags".toList, "RefCnt".toList, "Use".toList, "Metric".toList,
   "Mask".toList, "MTU".toList, "Window".toList, "IRTT".toList]

theorem hex16_ne (f : BitVec 16) : hex16 f ≠ [] := by simp [hex16, hexByteUpper]

theorem readLines_line {k : KernelRoute} (h : KernelRouteOk k) (pad : Nat) (s : Str) :
    readLines (routeLine k pad ++ s) [] [] = lineWords k :: readLines s [] [] := by
  obtain ⟨hi, hb, -⟩ := h
  have hscan : scan (k.iface ++ '\t' :: (hexLittle k.destination ++ '\t' :: (hexLittle k.gateway ++ '\t' :: (hex16 k.flags
      ++ '\t' :: (signedStr k.refcnt ++ '\t' :: (dec k.use ++ '\t' :: (signedStr k.metric ++ '\t' :: (hexLittle k.mask
      ++ '\t' :: (signedStr k.mtu ++ '\t' :: (dec k.window ++ '\t' :: (dec k.irtt ++ List.replicate (pad + 1) ' ')))))))))))
      ([], []) = (lineWords k, []) := by
    rw [scan_tab hb hi, scan_tab (hexLittle_noBlank _) (hexLittle_ne _), scan_tab (hexLittle_noBlank _) (hexLittle_ne _),
      scan_tab (hex16_noBlank _) (hex16_ne _), scan_tab (signedStr_noBlank _) (signedStr_ne _),
      scan_tab (dec_noBlank _) (dec_ne _), scan_tab (signedStr_noBlank _) (signedStr_ne _),
      scan_tab (hexLittle_noBlank _) (hexLittle_ne _), scan_tab (signedStr_noBlank _) (signedStr_ne _),
      scan_tab (dec_noBlank _) (dec_ne _), scan_last (dec_noBlank _) (dec_ne _)]
    rfl
  have hnl : ∀ {w : Str}, NoBlank w → '\n' ∉ w := fun hw hm => (hw _ hm).2.2 rfl
  have hno : '\n' ∉ (k.iface ++ '\t' :: (hexLittle k.destination ++ '\t' :: (hexLittle k.gateway ++ '\t' :: (hex16 k.flags
      ++ '\t' :: (signedStr k.refcnt ++ '\t' :: (dec k.use ++ '\t' :: (signedStr k.metric ++ '\t' :: (hexLittle k.mask
      ++ '\t' :: (signedStr k.mtu ++ '\t' :: (dec k.window ++ '\t' :: (dec k.irtt ++ List.replicate (pad + 1) ' ')))))))))))
      := by
    simp only [List.mem_append, List.mem_cons, not_or, List.mem_replicate]
    refine ⟨hnl hb, by decide, hnl (hexLittle_noBlank _), by decide, hnl (hexLittle_noBlank _), by decide,
      hnl (hex16_noBlank _), by decide, hnl (signedStr_noBlank _), by decide, hnl (dec_noBlank _), by decide,
      hnl (signedStr_noBlank _), by decide, hnl (hexLittle_noBlank _), by decide, hnl (signedStr_noBlank _), by decide,
      hnl (dec_noBlank _), by decide, hnl (dec_noBlank _), fun h => absurd h.2 (by decide)⟩
  have heq : routeLine k pad ++ s = (k.iface ++ '\t' :: (hexLittle k.destination ++ '\t' :: (hexLittle k.gateway ++ '\t' ::
      (hex16 k.flags ++ '\t' :: (signedStr k.refcnt ++ '\t' :: (dec k.use ++ '\t' :: (signedStr k.metric ++ '\t' ::
      (hexLittle k.mask ++ '\t' :: (signedStr k.mtu ++ '\t' :: (dec k.window ++ '\t' :: (dec k.irtt
      ++ List.replicate (pad + 1) ' '))))))))))) ++ '\n' :: s := by
    unfold routeLine
    simp only [List.append_assoc, List.cons_append, List.nil_append]
  rw [heq, readLines_scan hno, hscan, readLines, if_pos rfl]

theorem readLines_header (pad : Nat) (s : Str) :
    readLines (routeHeader pad ++ s) [] [] = columns :: readLines s [] [] := by
  have heq : routeHeader pad ++ s =
      ("Iface\tDestination\tGateway \tFlags\tRefCnt\tUse\tMetric\tMask\t\tMTU\tWindow\t".toList ++
        ("IRTT".toList ++ List.replicate (pad + 1) ' ')) ++ '\n' :: s := by
    unfold routeHeader
    rw [show "Iface\tDestination\tGateway \tFlags\tRefCnt\tUse\tMetric\tMask\t\tMTU\tWindow\tIRTT".toList =
      "Iface\tDestination\tGateway \tFlags\tRefCnt\tUse\tMetric\tMask\t\tMTU\tWindow\t".toList ++ "IRTT".toList by
        decide +kernel]
    simp only [List.append_assoc, List.cons_append, List.nil_append]
  have hno : '\n' ∉ "Iface\tDestination\tGateway \tFlags\tRefCnt\tUse\tMetric\tMask\t\tMTU\tWindow\t".toList := by
    decide +kernel
  have hno2 : '\n' ∉ "IRTT".toList ++ List.replicate (pad + 1) ' ' := by
    rw [List.mem_append, List.mem_replicate]
    rintro (h | h)
    · revert h; decide +kernel
    · exact absurd h.2 (by decide)
  rw [heq, List.append_assoc, readLines_scan hno, readLines_scan hno2,
    show scan "Iface\tDestination\tGateway \tFlags\tRefCnt\tUse\tMetric\tMask\t\tMTU\tWindow\t".toList ([], []) =
      (columns.take 10, []) by decide +kernel]
  dsimp only
  rw [scan_last (by unfold NoBlank; decide +kernel) (by decide +kernel)]
  dsimp only
  rw [readLines, if_pos rfl]
  rfl

theorem readRoute_line {k : KernelRoute} (h : KernelRouteOk k) (hf : k.flags.toNat < 0xA000) :
    ∃ r, readRoute (getPosition columns) (lineWords k) = .ok r ∧ Decodes k r := by
  obtain ⟨-, -, hr, hu, hm, ht, hw, hi⟩ := h
  obtain ⟨d, d1, d2, -⟩ := C01_ipv4_constructor (in4 k.destination) rfl
  obtain ⟨g, g1, g2, -⟩ := C01_ipv4_constructor (in4 k.gateway) rfl
  obtain ⟨m, m1, m2, -⟩ := C01_ipv4_constructor (in4 k.mask) rfl
  have long : ∀ {n : Int}, IsCInt n → -9223372036854775808 ≤ n ∧ n ≤ 9223372036854775807 := by
    rintro n ⟨h1, h2⟩
    exact ⟨by omega, by omega⟩
  unfold readRoute
  rw [show getPosition columns "Iface".toList = 0 by decide +kernel,
    show getPosition columns "Destination".toList = 1 by decide +kernel,
    show getPosition columns "Gateway".toList = 2 by decide +kernel,
    show getPosition columns "Flags".toList = 3 by decide +kernel,
    show getPosition columns "RefCnt".toList = 4 by decide +kernel,
    show getPosition columns "Use".toList = 5 by decide +kernel,
    show getPosition columns "Metric".toList = 6 by decide +kernel,
    show getPosition columns "Mask".toList = 7 by decide +kernel,
    show getPosition columns "MTU".toList = 8 by decide +kernel,
    show getPosition columns "Window".toList = 9 by decide +kernel,
    show getPosition columns "IRTT".toList = 10 by decide +kernel]
  rw [show getValue (lineWords k) 0 = .ok k.iface from rfl, show getValue (lineWords k) 1 = .ok (hexLittle k.destination) from rfl,
    show getValue (lineWords k) 2 = .ok (hexLittle k.gateway) from rfl, show getValue (lineWords k) 3 = .ok (hex16 k.flags) from rfl,
    show getValue (lineWords k) 4 = .ok (signedStr k.refcnt) from rfl, show getValue (lineWords k) 5 = .ok (dec k.use) from rfl,
    show getValue (lineWords k) 6 = .ok (signedStr k.metric) from rfl, show getValue (lineWords k) 7 = .ok (hexLittle k.mask) from rfl,
    show getValue (lineWords k) 8 = .ok (signedStr k.mtu) from rfl, show getValue (lineWords k) 9 = .ok (dec k.window) from rfl,
    show getValue (lineWords k) 10 = .ok (dec k.irtt) from rfl]
  simp only [Res.bind_ok, hexToAddr_little, d1, g1, m1, m2, stol_flags k.flags hf, stol_signedStr (long hr).1 (long hr).2,
    stol_signedStr (long hm).1 (long hm).2, stol_signedStr (long ht).1 (long ht).2,
    stol_dec (show k.use ≤ 9223372036854775807 by omega), stol_dec (show k.window ≤ 9223372036854775807 by omega),
    stol_dec (show k.irtt ≤ 9223372036854775807 by omega), ne_eq, hexLittle_ne, not_false_eq_true,
    if_true]
  refine ⟨_, rfl, rfl, ?_, ?_, rfl, g2, toCInt_id hr, ?_, toCInt_id hm, toCInt_id ht, ?_, ?_, ?_⟩
  · exact d2
  · have : k.mask.toList = [k.mask[0], k.mask[1], k.mask[2], k.mask[3]] := by
      have hb : k.mask = #v[k.mask[0], k.mask[1], k.mask[2], k.mask[3]] := by
        apply Vector.ext
        intro i hi
        have : i = 0 ∨ i = 1 ∨ i = 2 ∨ i = 3 := by omega
        rcases this with rfl | rfl | rfl | rfl <;> rfl
      rw [hb]
      rfl
    rw [this]
    rfl
  · exact fun h => toCInt_id ⟨by omega, by omega⟩
  · exact fun h => toCInt_id ⟨by omega, by omega⟩
  · exact fun h => toCInt_id ⟨by omega, by omega⟩
  · refine toCInt_id ⟨by omega, ?_⟩
    have := digits4_le (d := (hex16 k.flags).takeWhile Char.isDigit)
      (Nat.le_trans (length_takeWhile_le' _ _) (Nat.le_of_eq rfl))
      (fun c hc => List.all_eq_true.1 List.all_takeWhile c hc)
    omega

/-- **C53**: the whole table which the kernel prints is read, one route per line and in the order of the lines, with the
destinations, masks, gateways, interfaces and numbers which the kernel wrote. -/
theorem C53_table (pad : Nat) (rs : List (KernelRoute × Nat)) (h : ∀ r ∈ rs, KernelRouteOk r.1 ∧ r.1.flags.toNat < 0xA000) :
    ∃ l, getIpv4Routes (routeTable pad rs) = .ok l ∧ List.Forall₂ (fun k r => Decodes k.1 r) rs l := by
  unfold getIpv4Routes routeTable
  rw [readLines_header]
  dsimp only
  rw [if_neg (by decide +kernel)]
  induction rs with
  | nil => exact ⟨[], rfl, .nil⟩
  | cons k rs ih =>
    obtain ⟨l, hl, hd⟩ := ih (fun r hr => h r (List.mem_cons_of_mem _ hr))
    have hk := h k (by simp)
    obtain ⟨r, hr, hdr⟩ := readRoute_line hk.1 hk.2
    refine ⟨r :: l, ?_, .cons hdr hd⟩
    rw [List.map_cons, List.flatten_cons, readLines_line hk.1, readRoutes, hr, Res.bind_ok, hl]
    rfl

/-- A default route and a local network. -/
def kernelRoutes : List (KernelRoute × Nat) :=
  [({ iface := "eth0".toList, destination := #v[0, 0, 0, 0], gateway := #v[192, 168, 1, 254], flags := 3, refcnt := 0, use := 0, metric := 100, mask := #v[0, 0, 0, 0], mtu := 0, window := 0, irtt := 0 }, 30),
   ({ iface := "eth0".toList, destination := #v[192, 168, 1, 0], gateway := #v[0, 0, 0, 0], flags := 1, refcnt := 0, use := 0, metric := 100, mask := #v[255, 255, 255, 0], mtu := 1500, window := 0, irtt := 0 }, 30)]

example : ∀ r ∈ kernelRoutes, KernelRouteOk r.1 ∧ r.1.flags.toNat < 0xA000 := by
  unfold KernelRouteOk kernelRoutes
  decide +kernel

/-! ## C54 -/

/-- The first line of the file has this column: the name, after a blank or at the beginning and before a blank. -/
def HasColumn (file name : Str) : Prop :=
  ∃ pre b post, file = pre ++ name ++ b :: post ∧ '\n' ∉ pre ∧ (b = ' ' ∨ b = '\t') ∧ '\n' ∈ post ∧
    (pre = [] ∨ pre.getLast? = some ' ' ∨ pre.getLast? = some '\t')

/-- The claim of C54: whatever the file, no undefined behaviour. -/
def C54_claim : Prop := ∀ file w, getIpv4Routes file ≠ .ub w

/-- C54 is false: without the column of the flags, the word before the first one is read. -/
theorem C54_claim_fails : ¬ C54_claim := by
  intro h
  refine h "Iface Destination Gateway \neth0 00000000 00000000 \n".toList .outOfBounds ?_
  decide +kernel

theorem scan_words_mono (a : Str) (st : List Str × Str) : ∀ x ∈ st.1, x ∈ (scan a st).1 := by
  induction a generalizing st with
  | nil => exact fun x h => h
  | cons c a ih =>
    intro x hx
    rw [scan]
    split
    · split
      · exact ih _ x (List.mem_append_left _ hx)
      · exact ih _ x hx
    · exact ih _ x hx

theorem scan_append (a b : Str) (st : List Str × Str) : scan (a ++ b) st = scan b (scan a st) := by
  induction a generalizing st with
  | nil => rfl
  | cons c a ih =>
    rw [List.cons_append, scan, scan]
    split
    · split
      · exact ih _
      · exact ih _
    · exact ih _

theorem scan_blank_end {pre : Str} (h : pre = [] ∨ pre.getLast? = some ' ' ∨ pre.getLast? = some '\t') :
    (scan pre ([], [])).2 = [] := by
  rcases List.eq_nil_or_concat pre with rfl | ⟨l, c, rfl⟩
  · rfl
  · have hc : c = '\t' ∨ c = ' ' := by
      rcases h with h | h | h
      · simp at h
      · right; simpa using h
      · left; simpa using h
    rw [List.concat_eq_append, scan_append]
    generalize scan l ([], []) = st
    rw [scan, if_pos hc]
    split
    · rfl
    · rename_i hn
      simpa [scan] using hn

theorem hasColumn_header {file name : Str} (h : HasColumn file name) (hn : NoBlank name) (hne : name ≠ []) :
    ∃ headers lines, readLines file [] [] = headers :: lines ∧ name ∈ headers := by
  obtain ⟨pre, b, post, rfl, hp, hb, hpost, hpre⟩ := h
  obtain ⟨line, rest, rfl, hline⟩ : ∃ line rest, post = line ++ '\n' :: rest ∧ '\n' ∉ line := by
    clear hp hb hpre
    induction post with
    | nil => simp at hpost
    | cons c post ih =>
      by_cases hc : c = '\n'
      · exact ⟨[], post, by rw [hc]; rfl, by simp⟩
      · rcases List.mem_cons.1 hpost with h | h
        · exact absurd h.symm hc
        · obtain ⟨line, rest, rfl, hl⟩ := ih h
          refine ⟨c :: line, rest, rfl, ?_⟩
          simp only [List.mem_cons, not_or]
          exact ⟨Ne.symm hc, hl⟩
  have hbn : b ≠ '\n' := by rcases hb with rfl | rfl <;> decide
  have hno : '\n' ∉ pre ++ name ++ b :: line := by
    simp only [List.mem_append, List.mem_cons, not_or]
    exact ⟨⟨hp, fun h => (hn _ h).2.2 rfl⟩, Ne.symm hbn, hline⟩
  rw [show pre ++ name ++ b :: (line ++ '\n' :: rest) = (pre ++ name ++ b :: line) ++ '\n' :: rest by simp,
    readLines_scan hno, readLines, if_pos rfl]
  refine ⟨_, _, rfl, ?_⟩
  rw [List.append_assoc, scan_append, show scan pre ([], []) = ((scan pre ([], [])).1, []) from
    Prod.ext rfl (scan_blank_end hpre), scan_word hn, scan, if_pos (by rcases hb with rfl | rfl <;> simp)]
  rw [if_pos (by simpa using hne)]
  exact scan_words_mono _ _ _ (by simp)

theorem getPosition_mem {headers : List Str} {name : Str} (h : name ∈ headers) : 0 ≤ getPosition headers name := by
  induction headers with
  | nil => simp at h
  | cons x l ih =>
    rw [getPosition]
    split
    · exact Int.le_refl _
    · rename_i hx
      rcases List.mem_cons.1 h with h | h
      · exact absurd h.symm hx
      · have := ih h
        rw [if_neg (by omega)]
        omega

/-- No undefined behaviour. -/
def NoUb {α : Type} (r : Res α) : Prop := ∀ w, r ≠ .ub w

theorem noUb_ok {α : Type} (a : α) : NoUb (Res.ok a) := fun _ h => nomatch h
theorem noUb_throw {α : Type} (e : Exc) : NoUb (Res.throw e : Res α) := fun _ h => nomatch h

theorem noUb_bind {α β : Type} {r : Res α} {f : α → Res β} (h1 : NoUb r) (h2 : ∀ a, NoUb (f a)) : NoUb (r >>= f) := by
  cases r with
  | ok a => exact h2 a
  | throw e => exact noUb_throw e
  | ub w => exact absurd rfl (h1 w)

theorem noUb_getValue {entries : List Str} {pos : Int} (h : 0 ≤ pos) : NoUb (getValue entries pos) := by
  unfold getValue
  split
  · rw [if_neg (by omega)]; exact noUb_ok _
  · exact noUb_ok _

theorem noUb_hexToNumber (c : Char) : NoUb (hexToNumber c) := by
  unfold hexToNumber
  repeat' split
  all_goals first | exact noUb_ok _ | exact noUb_throw _

theorem noUb_ofIn (s : SockaddrIn) : NoUb (Addr.ofIn s) := by
  unfold Addr.ofIn Addr.setIpv4
  by_cases h : s.family ≠ AF_INET
  · rw [if_pos h]; exact noUb_throw _
  · rw [if_neg h]; exact noUb_ok _

theorem noUb_hexToAddr (s : Str) : NoUb (hexToAddr s) := by
  unfold hexToAddr
  split
  · refine noUb_bind (noUb_hexToNumber _) fun _ => noUb_bind (noUb_hexToNumber _) fun _ => noUb_bind (noUb_hexToNumber _)
      fun _ => noUb_bind (noUb_hexToNumber _) fun _ => noUb_bind (noUb_hexToNumber _) fun _ => noUb_bind (noUb_hexToNumber _)
      fun _ => noUb_bind (noUb_hexToNumber _) fun _ => noUb_bind (noUb_hexToNumber _) fun _ => noUb_ofIn _
  · exact noUb_throw _

theorem noUb_stol (s : Str) : NoUb (stol s) := by
  unfold stol
  dsimp only
  generalize (List.takeWhile Char.isDigit _) = d
  split
  · exact noUb_throw _
  · repeat' split
    all_goals first | exact noUb_ok _ | exact noUb_throw _

theorem noUb_readRoute {pos : Str → Int} (h : ∀ n ∈ columns, 0 ≤ pos n) (entries : List Str) : NoUb (readRoute pos entries) := by
  unfold readRoute
  have g : ∀ n, n ∈ columns → NoUb (getValue entries (pos n)) := fun n hn => noUb_getValue (h n hn)
  refine noUb_bind (g _ (by decide +kernel)) fun _ => noUb_bind (noUb_bind (g _ (by decide +kernel)) noUb_hexToAddr) fun _ =>
    noUb_bind (noUb_bind (g _ (by decide +kernel)) noUb_hexToAddr) fun _ =>
    noUb_bind (noUb_bind (g _ (by decide +kernel)) noUb_stol) fun _ =>
    noUb_bind (noUb_bind (g _ (by decide +kernel)) noUb_stol) fun _ =>
    noUb_bind (noUb_bind (g _ (by decide +kernel)) noUb_stol) fun _ =>
    noUb_bind (noUb_bind (g _ (by decide +kernel)) noUb_stol) fun _ =>
    noUb_bind (noUb_bind (g _ (by decide +kernel)) noUb_stol) fun _ =>
    noUb_bind (noUb_bind (g _ (by decide +kernel)) noUb_stol) fun _ =>
    noUb_bind (noUb_bind (g _ (by decide +kernel)) noUb_stol) fun _ =>
    noUb_bind (g _ (by decide +kernel)) fun m => noUb_bind ?_ fun _ => noUb_ok _
  by_cases hm : m ≠ []
  · rw [if_pos hm]
    refine noUb_bind (noUb_hexToAddr _) fun a => noUb_bind ?_ fun _ => noUb_ok _
    unfold Addr.getIpv4
    split
    · exact noUb_ok _
    · exact noUb_throw _
  · rw [if_neg hm]; exact noUb_ok _

/-- **C54**, for the files whose first line has the eleven columns (those of Linux have them): no undefined behaviour,
whatever the rest of the file. -/
theorem C54_no_ub_partial (file : Str) (h : ∀ n ∈ columns, HasColumn file n) : ∀ w, getIpv4Routes file ≠ .ub w := by
  have hc : ∀ n ∈ columns, NoBlank n ∧ n ≠ [] := by unfold NoBlank; decide +kernel
  obtain ⟨headers, lines, he, -⟩ := hasColumn_header (h _ (List.mem_cons_self (a := "Iface".toList)))
    (hc _ List.mem_cons_self).1 (hc _ List.mem_cons_self).2
  have hp : ∀ n ∈ columns, 0 ≤ getPosition headers n := by
    intro n hn
    obtain ⟨headers', lines', he', hm⟩ := hasColumn_header (h n hn) (hc n hn).1 (hc n hn).2
    rw [he] at he'
    cases he'
    exact getPosition_mem hm
  have hl : ∀ lines : List (List Str), NoUb (readRoutes (getPosition headers) lines) := by
    intro lines
    induction lines with
    | nil => exact noUb_ok _
    | cons e l ih => exact noUb_bind (noUb_readRoute hp e) fun _ => noUb_bind ih fun _ => noUb_ok _
  unfold getIpv4Routes
  rw [he]
  dsimp only
  split
  · exact noUb_ok _
  · exact hl lines

example : HasColumn (routeHeader 5 ++ "garbage".toList) "Metric".toList :=
  ⟨"Iface\tDestination\tGateway \tFlags\tRefCnt\tUse\t".toList, '\t', "Mask\t\tMTU\tWindow\tIRTT      \ngarbage".toList,
    by decide +kernel, by decide +kernel, by decide, by decide +kernel, by decide +kernel⟩

theorem scan_parts (line : Str) :
    (∀ x ∈ (scan line ([], [])).1, ∃ pre b post, line = pre ++ x ++ b :: post ∧ (b = ' ' ∨ b = '\t') ∧
      (pre = [] ∨ pre.getLast? = some ' ' ∨ pre.getLast? = some '\t'))
    ∧ ∃ pre, line = pre ++ (scan line ([], [])).2 ∧ (pre = [] ∨ pre.getLast? = some ' ' ∨ pre.getLast? = some '\t') := by
  obtain ⟨r, rfl⟩ : ∃ r, line = r.reverse := ⟨line.reverse, (List.reverse_reverse line).symm⟩
  induction r with
  | nil => exact ⟨by simp [scan], [], by simp [scan]⟩
  | cons c r ih =>
    rw [List.reverse_cons]
    generalize r.reverse = l at ih ⊢
    rw [scan_append]
    generalize scan l ([], []) = st at ih
    obtain ⟨h1, pre, h2, h3⟩ := ih
    have old : ∀ x ∈ st.1, ∃ pre b post, l ++ [c] = pre ++ x ++ b :: post ∧ (b = ' ' ∨ b = '\t') ∧
        (pre = [] ∨ pre.getLast? = some ' ' ∨ pre.getLast? = some '\t') := by
      intro x hx
      obtain ⟨p, b, q, e, hb, hp⟩ := h1 x hx
      exact ⟨p, b, q ++ [c], by rw [e]; simp, hb, hp⟩
    rw [scan]
    by_cases hc : c = '\t' ∨ c = ' '
    · rw [if_pos hc]
      have hlast : (l ++ [c]).getLast? = some ' ' ∨ (l ++ [c]).getLast? = some '\t' := by
        rcases hc with rfl | rfl <;> simp
      by_cases hw : st.2 ≠ []
      · rw [if_pos hw]
        refine ⟨?_, l ++ [c], by simp [scan], Or.inr hlast⟩
        intro x hx
        rcases List.mem_append.1 hx with hx | hx
        · exact old x hx
        · rw [List.mem_singleton] at hx
          subst hx
          exact ⟨pre, c, [], by rw [← h2], Or.symm hc, h3⟩
      · rw [if_neg hw]
        refine ⟨old, l ++ [c], ?_, Or.inr hlast⟩
        have : st.2 = [] := Classical.not_not.1 hw
        simp [scan, this]
    · rw [if_neg hc]
      exact ⟨old, pre, by simp only [scan]; rw [← List.append_assoc, ← h2], h3⟩

theorem readLines_no_newline (file : Str) (h : '\n' ∉ file) (words : List Str) (w : Str) : readLines file words w = [] := by
  induction file generalizing words w with
  | nil => rfl
  | cons c s ih =>
    simp only [List.mem_cons, not_or] at h
    rw [readLines, if_neg (Ne.symm h.1)]
    split
    · split
      · exact ih h.2 _ _
      · exact ih h.2 _ _
    · exact ih h.2 _ _

theorem header_hasColumn {file name : Str} {headers : List Str} {lines : List (List Str)}
    (h : readLines file [] [] = headers :: lines) (hm : name ∈ headers) : HasColumn file name := by
  by_cases hn : '\n' ∈ file
  · obtain ⟨line, rest, rfl, hline⟩ := List.eq_append_cons_of_mem hn
    rw [readLines_scan hline, readLines, if_pos rfl] at h
    have hh : (scan line ([], [])).1 = headers := (List.cons.inj h).1
    rw [← hh] at hm
    obtain ⟨pre, b, post, e, hb, hp⟩ := (scan_parts line).1 name hm
    refine ⟨pre, b, post ++ '\n' :: rest, by rw [e]; simp, ?_, hb, by simp, hp⟩
    intro hx
    exact hline (by rw [e]; simp [hx])
  · rw [readLines_no_newline file hn] at h
    cases h

theorem getPosition_absent {headers : List Str} {name : Str} (h : name ∉ headers) : getPosition headers name = -1 := by
  induction headers with
  | nil => rfl
  | cons x l ih =>
    simp only [List.mem_cons, not_or] at h
    rw [getPosition, if_neg (Ne.symm h.1), if_pos (ih h.2)]

/-- **C54**: a file without one of the columns Iface, Destination and Gateway is a file without routes. -/
theorem C54_missing_column (file name : Str) (hn : name ∈ ["Iface".toList, "Destination".toList, "Gateway".toList])
    (h : ¬ HasColumn file name) : getIpv4Routes file = .ok [] := by
  unfold getIpv4Routes
  split
  · rfl
  · rename_i headers lines hl
    have ha : getPosition headers name = -1 := getPosition_absent fun hm => h (header_hasColumn hl hm)
    rw [if_pos]
    simp only [List.mem_cons, List.not_mem_nil, or_false] at hn
    rcases hn with rfl | rfl | rfl
    · exact Or.inl ha
    · exact Or.inr (Or.inl ha)
    · exact Or.inr (Or.inr ha)

theorem bind_eq_ok {α β : Type} {x : Res α} {f : α → Res β} {b : β} (h : (x >>= f) = .ok b) : ∃ a, x = .ok a ∧ f a = .ok b := by
  cases x with
  | ok a => exact ⟨a, rfl, h⟩
  | throw e => cases h
  | ub w => cases h

/-- A line cannot be read when one of the columns is missing. -/
theorem readRoute_missing {pos : Str → Int} {n : Str} (hn : n ∈ columns) (hp : pos n = -1) (e : List Str) (r : Route) : readRoute pos e ≠ .ok r := by
  have hub : ∀ s : Str, getValue e (pos n) ≠ .ok s := by
    intro s
    rw [hp, getValue, if_pos (by omega), if_pos (by decide)]
    exact fun h => nomatch h
  intro h
  unfold readRoute at h
  obtain ⟨v0, h0, h⟩ := bind_eq_ok h
  obtain ⟨_, h1, h⟩ := bind_eq_ok h
  obtain ⟨v1, h1, _⟩ := bind_eq_ok h1
  obtain ⟨_, h2, h⟩ := bind_eq_ok h
  obtain ⟨v2, h2, _⟩ := bind_eq_ok h2
  obtain ⟨_, h3, h⟩ := bind_eq_ok h
  obtain ⟨v3, h3, _⟩ := bind_eq_ok h3
  obtain ⟨_, h4, h⟩ := bind_eq_ok h
  obtain ⟨v4, h4, _⟩ := bind_eq_ok h4
  obtain ⟨_, h5, h⟩ := bind_eq_ok h
  obtain ⟨v5, h5, _⟩ := bind_eq_ok h5
  obtain ⟨_, h6, h⟩ := bind_eq_ok h
  obtain ⟨v6, h6, _⟩ := bind_eq_ok h6
  obtain ⟨_, h7, h⟩ := bind_eq_ok h
  obtain ⟨v7, h7, _⟩ := bind_eq_ok h7
  obtain ⟨_, h8, h⟩ := bind_eq_ok h
  obtain ⟨v8, h8, _⟩ := bind_eq_ok h8
  obtain ⟨_, h9, h⟩ := bind_eq_ok h
  obtain ⟨v9, h9, _⟩ := bind_eq_ok h9
  obtain ⟨v10, h10, _⟩ := bind_eq_ok h
  unfold columns at hn
  simp only [List.mem_cons, List.not_mem_nil, or_false] at hn
  rcases hn with rfl | rfl | rfl | rfl | rfl | rfl | rfl | rfl | rfl | rfl | rfl
  · exact hub _ h0
  · exact hub _ h1
  · exact hub _ h2
  · exact hub _ h3
  · exact hub _ h4
  · exact hub _ h5
  · exact hub _ h6
  · exact hub _ h10
  · exact hub _ h7
  · exact hub _ h8
  · exact hub _ h9

/-- **C54**: no route is ever read from a file without one of the eleven columns. -/
theorem C54_missing_no_route (file name : Str) (hn : name ∈ columns) (h : ¬ HasColumn file name) (l : List Route)
    (hl : getIpv4Routes file = .ok l) : l = [] := by
  unfold getIpv4Routes at hl
  split at hl
  · exact (Res.ok.inj hl).symm
  · rename_i headers lines he
    have ha : getPosition headers name = -1 := getPosition_absent fun hm => h (header_hasColumn he hm)
    split at hl
    · exact (Res.ok.inj hl).symm
    · cases lines with
      | nil => exact (Res.ok.inj hl).symm
      | cons e lines =>
        rw [readRoutes] at hl
        obtain ⟨r, hr, _⟩ := bind_eq_ok hl
        exact absurd hr (readRoute_missing hn ha e r)

example : ¬ HasColumn "Iface Destination Gateway\neth0 00000000 00000000 \n".toList "Gateway".toList := by
  rintro ⟨pre, b, post, e, hp, hb, hpost, hpre⟩
  have := hasColumn_header ⟨pre, b, post, e, hp, hb, hpost, hpre⟩ (by unfold NoBlank; decide +kernel) (by decide +kernel)
  obtain ⟨headers, lines, h1, h2⟩ := this
  rw [show readLines "Iface Destination Gateway\neth0 00000000 00000000 \n".toList [] []
    = [["Iface".toList, "Destination".toList], ["eth0".toList, "00000000".toList, "00000000".toList]] by decide +kernel] at h1
  cases h1
  revert h2
  decide +kernel

/-! ## C61 -/

/-- The claim of C61: the flags are those which the kernel wrote. -/
def C61_claim : Prop :=
  ∀ (k : KernelRoute), KernelRouteOk k → ∀ l, getIpv4Routes (routeTable 1 [(k, 1)]) = .ok l → ∀ r ∈ l, r.flags = k.flags.toNat

/-- C61 is false: the flags are printed in hexadecimal and read in decimal. A rejected route (0201) gives 201. -/
theorem C61_claim_fails : ¬ C61_claim := by
  intro h
  let k : KernelRoute := { iface := "*".toList, destination := #v[10, 0, 0, 0], gateway := #v[0, 0, 0, 0], flags := 0x201, refcnt := 0, use := 0, metric := 0, mask := #v[255, 0, 0, 0], mtu := 0, window := 0, irtt := 0 }
  have hk : KernelRouteOk k := by
    show KernelRouteOk { iface := "*".toList, destination := #v[10, 0, 0, 0], gateway := #v[0, 0, 0, 0], flags := 0x201, refcnt := 0, use := 0, metric := 0, mask := #v[255, 0, 0, 0], mtu := 0, window := 0, irtt := 0 }
    unfold KernelRouteOk
    decide +kernel
  obtain ⟨l, hl, hd⟩ := C53_table 1 [(k, 1)] (by
    intro r hr
    simp only [List.mem_singleton] at hr
    subst hr
    exact ⟨hk, by decide⟩)
  cases hd with
  | cons hd hn =>
    cases hn
    have h1 := h k hk _ hl _ (List.mem_cons_self)
    rw [hd.flags] at h1
    revert h1
    decide +kernel

/-- **C61**, for flags below ten: all the flags of the usual routes (up, gateway, host). -/
theorem C61_flags_partial (pad : Nat) (rs : List (KernelRoute × Nat)) (h : ∀ r ∈ rs, KernelRouteOk r.1 ∧ r.1.flags.toNat < 10) :
    ∃ l, getIpv4Routes (routeTable pad rs) = .ok l ∧ List.Forall₂ (fun k r => r.flags = k.1.flags.toNat) rs l := by
  obtain ⟨l, hl, hd⟩ := C53_table pad rs (fun r hr => ⟨(h r hr).1, by have := (h r hr).2; omega⟩)
  refine ⟨l, hl, ?_⟩
  have small : ∀ n : Fin 10, (Nat.ofDigitChars 10 ((hex16 (BitVec.ofNat 16 n.val)).takeWhile Char.isDigit) 0) = n.val := by
    decide +kernel
  clear hl
  induction hd with
  | nil => exact .nil
  | @cons k r rs l hkr _ ih =>
    refine .cons ?_ (ih fun r hr => h r (List.mem_cons_of_mem _ hr))
    have hlt := (h k (by simp)).2
    have := small ⟨k.1.flags.toNat, hlt⟩
    rw [hkr.flags]
    simp only [BitVec.ofNat_toNat, BitVec.setWidth_eq] at this
    rw [this]

theorem hexDigitUpper_digit : ∀ n : Fin 16, (hexDigitUpper n.val).isDigit = decide (n.val < 10)
    ∧ (n.val < 10 → (hexDigitUpper n.val).toNat - 48 = n.val) ∧ Parser.isSpace (hexDigitUpper n.val) = false
    ∧ hexDigitUpper n.val ≠ '-' ∧ hexDigitUpper n.val ≠ '+' := by decide +kernel

/-- The decimal number read is smaller than the hexadecimal one, except for one digit below ten. -/
theorem flags_read (f : BitVec 16) : Nat.ofDigitChars 10 ((hex16 f).takeWhile Char.isDigit) 0 = f.toNat ↔ f.toNat < 10 := by
  have h0 := f.isLt
  obtain ⟨a, ha⟩ : ∃ a, a = ((f >>> 8).setWidth 8).toNat / 16 := ⟨_, rfl⟩
  obtain ⟨b, hb⟩ : ∃ b, b = ((f >>> 8).setWidth 8).toNat % 16 := ⟨_, rfl⟩
  obtain ⟨c, hc⟩ : ∃ c, c = (f.setWidth 8).toNat / 16 := ⟨_, rfl⟩
  obtain ⟨d, hd⟩ : ∃ d, d = (f.setWidth 8).toNat % 16 := ⟨_, rfl⟩
  have e : hex16 f = [hexDigitUpper a, hexDigitUpper b, hexDigitUpper c, hexDigitUpper d] := by
    subst ha hb hc hd
    rfl
  have hf : f.toNat = a * 4096 + b * 256 + c * 16 + d ∧ a < 16 ∧ b < 16 ∧ c < 16 ∧ d < 16 := by
    simp only [BitVec.toNat_setWidth, BitVec.toNat_ushiftRight, Nat.shiftRight_eq_div_pow] at ha hb hc hd
    omega
  obtain ⟨hf, la, lb, lc, ld⟩ := hf
  have da := hexDigitUpper_digit ⟨a, la⟩
  have db := hexDigitUpper_digit ⟨b, lb⟩
  have dc := hexDigitUpper_digit ⟨c, lc⟩
  have dd := hexDigitUpper_digit ⟨d, ld⟩
  dsimp only at da db dc dd
  rw [e, hf]
  by_cases a10 : a < 10
  · rw [List.takeWhile_cons_of_pos (by rw [da.1]; exact decide_eq_true a10)]
    by_cases b10 : b < 10
    · rw [List.takeWhile_cons_of_pos (by rw [db.1]; exact decide_eq_true b10)]
      by_cases c10 : c < 10
      · rw [List.takeWhile_cons_of_pos (by rw [dc.1]; exact decide_eq_true c10)]
        by_cases d10 : d < 10
        · rw [List.takeWhile_cons_of_pos (by rw [dd.1]; exact decide_eq_true d10)]
          simp only [List.takeWhile_nil, Nat.ofDigitChars_cons, Nat.ofDigitChars_nil, show '0'.toNat = 48 from rfl, da.2.1 a10, db.2.1 b10, dc.2.1 c10,
            dd.2.1 d10]
          omega
        · rw [List.takeWhile_cons_of_neg (by rw [dd.1]; simpa using d10)]
          simp only [Nat.ofDigitChars_cons, Nat.ofDigitChars_nil, show '0'.toNat = 48 from rfl, da.2.1 a10, db.2.1 b10, dc.2.1 c10]
          omega
      · rw [List.takeWhile_cons_of_neg (by rw [dc.1]; simpa using c10)]
        simp only [Nat.ofDigitChars_cons, Nat.ofDigitChars_nil, show '0'.toNat = 48 from rfl, da.2.1 a10, db.2.1 b10]
        omega
    · rw [List.takeWhile_cons_of_neg (by rw [db.1]; simpa using b10)]
      simp only [Nat.ofDigitChars_cons, Nat.ofDigitChars_nil, show '0'.toNat = 48 from rfl, da.2.1 a10]
      omega
  · rw [List.takeWhile_cons_of_neg (by rw [da.1]; simpa using a10)]
    simp only [Nat.ofDigitChars_nil]
    omega

/-- **C61**: the flags of a route are right exactly when they are below ten. -/
theorem C61_flags_iff (pad : Nat) (rs : List (KernelRoute × Nat)) (h : ∀ r ∈ rs, KernelRouteOk r.1 ∧ r.1.flags.toNat < 0xA000) :
    ∃ l, getIpv4Routes (routeTable pad rs) = .ok l ∧ List.Forall₂ (fun k r => r.flags = k.1.flags.toNat ↔ k.1.flags.toNat < 10) rs l := by
  obtain ⟨l, hl, hd⟩ := C53_table pad rs h
  refine ⟨l, hl, hd.imp fun k r hkr => ?_⟩
  rw [hkr.flags, Int.ofNat_inj, flags_read]

theorem stol_high (f : BitVec 16) (h : 0xA000 ≤ f.toNat) : stol (hex16 f) = .throw .stdInvalidArgument := by
  obtain ⟨a, ha⟩ : ∃ a, a = ((f >>> 8).setWidth 8).toNat / 16 := ⟨_, rfl⟩
  have e : ∃ t, hex16 f = hexDigitUpper a :: t := by
    subst ha
    exact ⟨_, rfl⟩
  obtain ⟨t, e⟩ := e
  have h0 := f.isLt
  have hf : 10 ≤ a ∧ a < 16 := by
    simp only [BitVec.toNat_setWidth, BitVec.toNat_ushiftRight, Nat.shiftRight_eq_div_pow] at ha
    omega
  obtain ⟨h1, _, h2, h3, h4⟩ := hexDigitUpper_digit ⟨a, hf.2⟩
  dsimp only at h1 h2 h3 h4
  unfold stol
  rw [e]
  dsimp only
  have hns : ¬ (Parser.isSpace (hexDigitUpper a) = true) := by rw [h2]; decide
  rw [List.dropWhile_cons_of_neg hns]
  rw [if_neg (c := (hexDigitUpper a :: t).head? = some '-' ∨ (hexDigitUpper a :: t).head? = some '+') (by
    rintro (h | h)
    · exact h3 (Option.some.inj h)
    · exact h4 (Option.some.inj h)),
    List.takeWhile_cons_of_neg (by rw [h1]; simpa using hf.1), if_pos rfl]

theorem readRoute_high {k : KernelRoute} (h : 0xA000 ≤ k.flags.toNat) :
    readRoute (getPosition columns) (lineWords k) = .throw .stdInvalidArgument := by
  obtain ⟨d, d1, d2, -⟩ := C01_ipv4_constructor (in4 k.destination) rfl
  obtain ⟨g, g1, g2, -⟩ := C01_ipv4_constructor (in4 k.gateway) rfl
  unfold readRoute
  rw [show getPosition columns "Iface".toList = 0 by decide +kernel,
    show getPosition columns "Destination".toList = 1 by decide +kernel,
    show getPosition columns "Gateway".toList = 2 by decide +kernel,
    show getPosition columns "Flags".toList = 3 by decide +kernel,
    show getValue (lineWords k) 0 = .ok k.iface from rfl, show getValue (lineWords k) 1 = .ok (hexLittle k.destination) from rfl,
    show getValue (lineWords k) 2 = .ok (hexLittle k.gateway) from rfl, show getValue (lineWords k) 3 = .ok (hex16 k.flags) from rfl,
    Res.bind_ok, Res.bind_ok, Res.bind_ok, Res.bind_ok, hexToAddr_little, d1, Res.bind_ok, hexToAddr_little, g1, Res.bind_ok, stol_high _ h]
  rfl

/-- **C61**: flags which begin with a letter make the whole table unreadable. -/
theorem C61_table_lost (pad : Nat) (rs : List (KernelRoute × Nat)) (h : ∀ r ∈ rs, KernelRouteOk r.1) (k : KernelRoute × Nat) (hk : k ∈ rs)
    (hf : 0xA000 ≤ k.1.flags.toNat) : getIpv4Routes (routeTable pad rs) = .throw .stdInvalidArgument := by
  unfold getIpv4Routes routeTable
  rw [readLines_header]
  dsimp only
  rw [if_neg (by decide +kernel)]
  induction rs with
  | nil => cases hk
  | cons x rs ih =>
    rw [List.map_cons, List.flatten_cons, readLines_line (h x List.mem_cons_self), readRoutes]
    by_cases hx : x.1.flags.toNat < 0xA000
    · obtain ⟨r, hr, _⟩ := readRoute_line (h x List.mem_cons_self) hx
      rw [hr, Res.bind_ok, ih (fun r hr => h r (List.mem_cons_of_mem _ hr)) ?_]
      · rfl
      · rcases List.mem_cons.1 hk with rfl | hk
        · omega
        · exact hk
    · rw [readRoute_high (by omega)]
      rfl

example : KernelRouteOk { iface := "eth0".toList, destination := #v[10, 0, 0, 0], gateway := #v[0, 0, 0, 0], flags := 0xA003, refcnt := 0, use := 0, metric := 0, mask := #v[255, 0, 0, 0], mtu := 0, window := 0, irtt := 0 } := by
  unfold KernelRouteOk
  decide +kernel

example : ∀ r ∈ kernelRoutes, KernelRouteOk r.1 ∧ r.1.flags.toNat < 10 := by
  unfold KernelRouteOk kernelRoutes
  decide +kernel

theorem flag_bit (x : BitVec 32) (i : Nat) (h : i < 32) : x &&& BitVec.twoPow 32 i ≠ 0 ↔ x.getLsbD i = true := by
  rw [BitVec.and_twoPow]
  split
  · rename_i hx
    simp only [hx, iff_true]
    intro h0
    have := congrArg (fun y => BitVec.getLsbD y i) h0
    simp [h] at this
  · rename_i hx
    simp [hx]

/-- **C61**: `flags_to_string()` has the letter of a flag of the kernel exactly when the bit of this flag is set. -/
theorem C61_flags_to_string (r : Route) (bit : Nat) (c : Char) (h : (bit, c) ∈ Spec.kernelFlags) :
    c ∈ r.flagsToString ↔ (BitVec.ofInt 32 r.flags).getLsbD bit = true := by
  have hname : ∀ x ∈ Spec.kernelFlags, x.1 < 32 ∧ (BitVec.twoPow 32 x.1, x.2) ∈ flagNames := by decide +kernel
  obtain ⟨h32, hm⟩ := hname _ h
  rw [← flag_bit _ _ h32]
  unfold flagsToString
  rw [List.mem_filterMap]
  constructor
  · rintro ⟨⟨g, d⟩, hm', hg⟩
    dsimp only at hg
    split at hg
    · rename_i hs
      simp only [Option.some.injEq] at hg
      subst hg
      have key : ∀ x ∈ flagNames, ∀ y ∈ flagNames, x.2 = y.2 → x.1 = y.1 := by decide +kernel
      have e : BitVec.twoPow 32 bit = g := key _ hm _ hm' rfl
      rw [e]
      exact hs
    · cases hg
  · intro hs
    exact ⟨_, hm, by rw [if_pos hs]⟩

/-- **C61**: there is no other letter, and each letter is there once. -/
theorem C61_letters (r : Route) : (∀ c ∈ r.flagsToString, ∃ bit, (bit, c) ∈ Spec.kernelFlags) ∧ r.flagsToString.Nodup := by
  constructor
  · intro c hc
    unfold flagsToString at hc
    rw [List.mem_filterMap] at hc
    obtain ⟨⟨g, d⟩, hm, hg⟩ := hc
    dsimp only at hg
    split at hg
    · simp only [Option.some.injEq] at hg
      subst hg
      have key : ∀ x ∈ flagNames, ∃ y ∈ Spec.kernelFlags, y.2 = x.2 := by decide +kernel
      obtain ⟨y, hy, e⟩ := key _ hm
      exact ⟨y.1, by rw [show d = y.2 from e.symm]; exact hy⟩
    · cases hg
  · have key : (flagNames.map Prod.snd).Nodup := by decide +kernel
    refine List.Sublist.nodup ?_ key
    unfold flagsToString
    generalize flagNames = l
    induction l with
    | nil => exact List.Sublist.refl _
    | cons x l ih =>
      rw [List.filterMap_cons, List.map_cons]
      split
      · exact List.Sublist.cons _ ih
      · rename_i hs
        split at hs
        · simp only [Option.some.injEq] at hs
          subst hs
          exact List.Sublist.cons_cons _ ih
        · cases hs

example : flagsToString { interfaceName := [], destination := Addr.default, gateway := Addr.default, flags := 7, referenceCount := 0, use := 0, metric := 0, mtu := 0, window := 0, irtt := 0 } = "UGH".toList := by decide +kernel

/-! ## C62 -/

/-- The claim of C62: the route found is the default route `0.0.0.0/0`. -/
def C62_claim : Prop :=
  ∀ (pad : Nat) (rs : List (KernelRoute × Nat)) (l : List Route) (r : Route), (∀ k ∈ rs, KernelRouteOk k.1 ∧ k.1.flags.toNat < 10) →
    getIpv4Routes (routeTable pad rs) = .ok l → findDefaultRoute l = some r → r.destination.getMaskSize = 96

/-- C62 is false: the mask is ignored, `0.0.0.0/1` (as VPN clients add it) is taken for the default route. -/
theorem C62_claim_fails : ¬ C62_claim := by
  intro h
  have e : (getIpv4Routes (routeTable 1 [({ iface := "tun0".toList, destination := #v[0, 0, 0, 0], gateway := #v[10, 8, 0, 1], flags := 3, refcnt := 0, use := 0, metric := 0, mask := #v[128, 0, 0, 0], mtu := 0, window := 0, irtt := 0 }, 1)]) >>=
      fun l => .ok ((findDefaultRoute l).map fun r => r.destination.getMaskSize)) = .ok (some 97) := by decide +kernel
  obtain ⟨l, hl, -⟩ := C53_table 1 [({ iface := "tun0".toList, destination := #v[0, 0, 0, 0], gateway := #v[10, 8, 0, 1], flags := 3, refcnt := 0, use := 0, metric := 0, mask := #v[128, 0, 0, 0], mtu := 0, window := 0, irtt := 0 }, 1)] (by
        unfold KernelRouteOk; decide +kernel)
  rw [hl, Res.bind_ok] at e
  simp only [Res.ok.injEq, Option.map_eq_some_iff] at e
  obtain ⟨r, hr, hm⟩ := e
  have := h 1 _ l r (by unfold KernelRouteOk; decide +kernel) hl hr
  omega

theorem word_zero (x y z t : Byte) : t ++ z ++ y ++ x = (0 : BitVec 32) ↔ (#v[x, y, z, t] : Bytes4) = #v[0, 0, 0, 0] := by
  constructor
  · intro h0
    have hn := congrArg BitVec.toNat h0
    rw [append8_toNat, append8_toNat, append8_toNat] at hn
    have e1 : x = 0 := (zero_iff x).2 (by simp at hn; omega)
    have e2 : y = 0 := (zero_iff y).2 (by simp at hn; omega)
    have e3 : z = 0 := (zero_iff z).2 (by simp at hn; omega)
    have e4 : t = 0 := (zero_iff t).2 (by simp at hn; omega)
    rw [e1, e2, e3, e4]
  · intro h
    simp only [Vector.mk.injEq, Array.mk.injEq, List.cons.injEq, and_true] at h
    obtain ⟨rfl, rfl, rfl, rfl⟩ := h
    rfl

/-- The default destination, whatever the mask. -/
theorem decodes_default {k : KernelRoute} {r : Route} (hkr : Decodes k r) :
    r.destination.isDefault = true ↔ k.destination = #v[0, 0, 0, 0] := by
  have hg := hkr.destination
  unfold Addr.getIpv4 at hg
  by_cases h4 : r.destination.isIpv4 = true
  · rw [if_pos h4] at hg
    simp only [Res.ok.injEq, SockaddrIn.mk.injEq] at hg
    have hb := hg.2.2.1
    unfold Addr.isIpv4 at h4
    simp only [Bool.and_eq_true, beq_iff_eq] at h4
    unfold Addr.isDefault
    simp only [Bool.and_eq_true, Bool.or_eq_true, beq_iff_eq, h4.1.1.1, h4.1.1.2, h4.1.2, h4.2, true_and, or_true]
    rw [← hb]
    generalize r.destination.bytes = b
    unfold Addr.word32
    show b[15] ++ b[14] ++ b[13] ++ b[12] = (0 : BitVec 32) ↔ _
    exact word_zero _ _ _ _
  · rw [if_neg h4] at hg
    cases hg

/-- **C62**: the route found is the first one whose destination is `0.0.0.0`; none is found when there is none. -/
theorem C62_default_route_partial (pad : Nat) (rs : List (KernelRoute × Nat))
    (h : ∀ r ∈ rs, KernelRouteOk r.1 ∧ r.1.flags.toNat < 0xA000) :
    ∃ l, getIpv4Routes (routeTable pad rs) = .ok l ∧
      ((∀ k ∈ rs, k.1.destination ≠ #v[0, 0, 0, 0]) → findDefaultRoute l = none) ∧
      ∀ pre k post, rs = pre ++ k :: post → (∀ x ∈ pre, x.1.destination ≠ #v[0, 0, 0, 0]) →
        k.1.destination = #v[0, 0, 0, 0] → ∃ r, findDefaultRoute l = some r ∧ Decodes k.1 r := by
  obtain ⟨l, hl, hd⟩ := C53_table pad rs h
  refine ⟨l, hl, ?_, ?_⟩
  · intro hn
    unfold findDefaultRoute
    rw [List.find?_eq_none]
    clear hl h
    induction hd with
    | nil => simp
    | @cons k r rs l hkr _ ih =>
      intro x hx
      rcases List.mem_cons.1 hx with rfl | hx
      · rw [decodes_default hkr]
        exact hn k (by simp)
      · exact ih (fun k hk => hn k (List.mem_cons_of_mem _ hk)) x hx
  · intro pre k post hrs hpre hk
    clear hl h
    subst hrs
    induction pre generalizing l with
    | nil =>
      cases hd with
      | cons hkr _ => exact ⟨_, List.find?_cons_of_pos ((decodes_default hkr).2 hk), hkr⟩
    | cons x pre ih =>
      cases hd with
      | @cons _ r _ l hxr hd =>
        obtain ⟨r', h1, h2⟩ := ih l (fun y hy => hpre y (List.mem_cons_of_mem _ hy)) hd
        refine ⟨r', ?_, h2⟩
        unfold findDefaultRoute
        rw [List.find?_cons_of_neg]
        · exact h1
        · rw [decodes_default hxr]
          exact hpre x (by simp)

example : (getIpv4Routes (routeTable 3 kernelRoutes) >>= fun l => .ok ((findDefaultRoute l).map fun r => r.gateway.getIpv4)) =
    .ok (some (.ok { family := 2, port := 0, addr := #v[192, 168, 1, 254], zero := Vector.replicate 8 0 })) := by
  decide +kernel

end Verif
