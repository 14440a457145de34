import Verif.Props.Route
import Verif.SpecRouteColumns

/-!
# C136: the columns of the route table are found by their names
-/

namespace Verif

open Spec Route

/-! ### The words of a line -/

theorem wordText_noBlank {w : Str} (h : WordText w) : NoBlank w :=
  fun c hc => ⟨fun e => (h c hc).1 (.inl e), fun e => (h c hc).1 (.inr e), (h c hc).2⟩

theorem scan_lead {lead : Str} (h : ∀ c ∈ lead, IsBlank c) (s : Str) (words : List Str) :
    scan (lead ++ s) (words, []) = scan s (words, []) := by
  induction lead with
  | nil => rfl
  | cons c lead ih =>
    rw [List.cons_append, scan, if_pos ((h c List.mem_cons_self).symm), if_neg (fun h => h rfl)]
    exact ih fun x hx => h x (List.mem_cons_of_mem _ hx)

theorem scan_lineText {ws : List Str} {s : Str} (h : LineText ws s) (words : List Str) : (scan s (words, [])).1 = words ++ ws := by
  induction h generalizing words with
  | @last lead lost h1 h2 =>
    rw [scan_lead h1]
    have := scan_word (wordText_noBlank h2) [] words []
    rw [List.append_nil] at this
    rw [this]
    simp [scan]
  | @word lead w b ws s h1 h2 h3 h4 _ ih =>
    rw [List.append_assoc, scan_lead h1, scan_word (wordText_noBlank h3), scan, if_pos h4.symm, List.nil_append, if_pos h2, ih]
    simp

theorem lineText_newline {ws : List Str} {s : Str} (h : LineText ws s) : '\n' ∉ s := by
  have hb : ∀ {l : Str}, (∀ c ∈ l, IsBlank c) → '\n' ∉ l := by
    intro l hl hc
    rcases hl _ hc with h | h <;> exact absurd h (by decide)
  have hw : ∀ {l : Str}, WordText l → '\n' ∉ l := fun hl hc => (hl _ hc).2 rfl
  induction h with
  | last h1 h2 =>
    intro hc
    rcases List.mem_append.1 hc with hc | hc
    · exact hb h1 hc
    · exact hw h2 hc
  | word h1 h2 h3 h4 _ ih =>
    intro hc
    rcases List.mem_append.1 hc with hc | hc
    · rcases List.mem_append.1 hc with hc | hc
      · exact hb h1 hc
      · exact hw h3 hc
    · rcases List.mem_cons.1 hc with rfl | hc
      · rcases h4 with h | h <;> exact absurd h (by decide)
      · exact ih hc

theorem readLines_lineText {ws : List Str} {s : Str} (h : LineText ws s) (rest : Str) :
    readLines (s ++ '\n' :: rest) [] [] = ws :: readLines rest [] [] := by
  rw [readLines_scan (lineText_newline h), readLines, if_pos rfl, scan_lineText h, List.nil_append]

theorem readLines_table {titles : List Str} {rows : List (List Str)} {file : Str} (h : TableText titles rows file) :
    readLines file [] [] = titles :: rows := by
  obtain ⟨hd, lines, tail, h1, h2, h3, rfl⟩ := h
  rw [List.append_assoc, List.cons_append, readLines_lineText h1]
  congr 1
  induction h2 with
  | nil => exact readLines_no_newline tail h3 [] []
  | cons hr _ ih =>
    rw [List.flatMap_cons, List.append_assoc, List.append_assoc, List.singleton_append, readLines_lineText hr, ih]

/-- Each line has its words. -/
theorem lineText_total (s : Str) (h : '\n' ∉ s) : ∃ ws, LineText ws s := by
  have key : ∀ (n : Nat) (s : Str), s.length ≤ n → '\n' ∉ s → ∃ ws, LineText ws s := by
    intro n
    induction n with
    | zero =>
      intro s hs _
      rw [List.length_eq_zero_iff.1 (Nat.le_zero.1 hs)]
      exact ⟨[], .last (lead := []) (lost := []) (fun _ h => nomatch h) (fun _ h => nomatch h)⟩
    | succ n ih =>
      intro s hs hn
      let p : Char → Bool := fun c => c = ' ' || c = '\t'
      have hp : ∀ c, p c = true ↔ IsBlank c := by
        intro c
        simp [p, IsBlank]
      have hlead : ∀ c ∈ s.takeWhile p, IsBlank c := fun c hc => (hp c).1 (List.all_eq_true.1 List.all_takeWhile c hc)
      obtain ⟨t, ht⟩ : ∃ t, t = s.dropWhile p := ⟨_, rfl⟩
      have hst : s = s.takeWhile p ++ t := by rw [ht, List.takeWhile_append_dropWhile]
      have htn : '\n' ∉ t := fun hc => hn (by rw [hst]; exact List.mem_append_right _ hc)
      have hw : WordText (t.takeWhile fun c => !p c) := by
        intro c hc
        refine ⟨fun hb => ?_, fun e => htn (by rw [← e]; exact (List.takeWhile_sublist _).subset hc)⟩
        have := List.all_eq_true.1 List.all_takeWhile c hc
        rw [(hp c).2 hb] at this
        cases this
      cases hd : t.dropWhile fun c => !p c with
      | nil =>
        have e : t = t.takeWhile fun c => !p c := by
          have := List.takeWhile_append_dropWhile (p := fun c => !p c) (l := t)
          rw [hd, List.append_nil] at this
          exact this.symm
        rw [hst, e]
        exact ⟨[], .last hlead hw⟩
      | cons b u =>
        have e : t = (t.takeWhile fun c => !p c) ++ b :: u := by
          rw [← hd, List.takeWhile_append_dropWhile]
        have hb : IsBlank b := by
          have := List.head?_dropWhile_not (p := fun c => !p c) t
          rw [hd] at this
          refine (hp b).1 ?_
          simpa using this
        have hne : (t.takeWhile fun c => !p c) ≠ [] := by
          intro h0
          rw [h0, List.nil_append] at e
          have := List.head?_dropWhile_not (p := p) s
          rw [← ht, e] at this
          rw [List.head?_cons] at this
          dsimp only at this
          rw [(hp b).2 hb] at this
          cases this
        have hl : u.length ≤ n := by
          have h1 := congrArg List.length e
          have h2 := congrArg List.length hst
          rw [List.length_append, List.length_cons] at h1
          rw [List.length_append] at h2
          omega
        obtain ⟨ws, hws⟩ := ih u hl (fun hc => htn (by rw [e]; exact List.mem_append_right _ (List.mem_cons_of_mem _ hc)))
        refine ⟨(t.takeWhile fun c => !p c) :: ws, ?_⟩
        have := LineText.word hlead hne hw hb hws
        rwa [List.append_assoc, ← e, ← hst] at this
  exact key _ s (Nat.le_refl _) h

/-! ### The cells -/

theorem getPosition_first {titles : List Str} {title : Str} {i : Nat} (h : titles[i]? = some title) (hf : ∀ j : Nat, j < i → titles[j]? ≠ some title) :
    getPosition titles title = i := by
  induction titles generalizing i with
  | nil => cases h
  | cons x l ih =>
    rw [getPosition]
    cases i with
    | zero =>
      rw [if_pos (Option.some.inj h)]
      rfl
    | succ i =>
      have hx : x ≠ title := fun e => hf 0 (by omega) (congrArg some e)
      have := ih (i := i) h fun j hj => hf (j + 1) (by omega)
      rw [if_neg hx, if_neg (by omega), this]
      omega

theorem position_first {titles : List Str} {title : Str} (h : title ∈ titles) :
    ∃ i : Nat, titles[i]? = some title ∧ ∀ j : Nat, j < i → titles[j]? ≠ some title := by
  induction titles with
  | nil => cases h
  | cons x l ih =>
    by_cases hx : x = title
    · exact ⟨0, congrArg some hx, fun j hj => absurd hj (by omega)⟩
    · obtain ⟨i, h1, h2⟩ := ih ((List.mem_cons.1 h).resolve_left (Ne.symm hx))
      refine ⟨i + 1, h1, fun j hj => ?_⟩
      cases j with
      | zero => exact fun e => hx (Option.some.inj e)
      | succ j => exact h2 j (by omega)

theorem getValue_cell {titles row : List Str} {title v : Str} (h : IsCell titles row title v) :
    getValue row (getPosition titles title) = .ok v := by
  obtain ⟨i, h1, h2, h3⟩ := h
  obtain ⟨hi, he⟩ := List.getElem?_eq_some_iff.1 h3
  rw [getPosition_first h1 h2, getValue, if_pos (by omega), if_neg (by omega), Int.toNat_natCast, List.getD_eq_getElem?_getD, h3]
  rfl

theorem getValue_none {titles row : List Str} {title : Str} (h : title ∈ titles) (hn : ∀ v, ¬ IsCell titles row title v) :
    getValue row (getPosition titles title) = .ok [] := by
  obtain ⟨i, h1, h2⟩ := position_first h
  have hl : row.length ≤ i := by
    rcases Nat.lt_or_ge i row.length with hlt | hge
    · exact absurd ⟨i, h1, h2, List.getElem?_eq_getElem hlt⟩ (hn _)
    · exact hge
  rw [getPosition_first h1 h2, getValue, if_neg (by omega)]

/-- The line of a route, whatever the order of its columns. -/
theorem readRoute_cells {titles row : List Str} {k : KernelRoute} (h : ∀ p ∈ routeCells k, IsCell titles row p.1 p.2) :
    readRoute (getPosition titles) row = readRoute (getPosition columns) (lineWords k) := by
  have hc : ∀ (title v : Str), (title, v) ∈ routeCells k → getValue row (getPosition titles title) = .ok v :=
    fun title v hp => getValue_cell (h _ hp)
  have hk : ∀ (title v : Str), (title, v) ∈ routeCells k → getValue (lineWords k) (getPosition columns title) = .ok v := by
    intro title v hp
    unfold routeCells routeCellsNoMask routeNumbers at hp
    simp only [List.mem_cons, List.not_mem_nil, or_false, Prod.mk.injEq] at hp
    rcases hp with ⟨rfl, rfl⟩ | ⟨rfl, rfl⟩ | ⟨rfl, rfl⟩ | ⟨rfl, rfl⟩ | ⟨rfl, rfl⟩ | ⟨rfl, rfl⟩ | ⟨rfl, rfl⟩ | ⟨rfl, rfl⟩ | ⟨rfl, rfl⟩ | ⟨rfl, rfl⟩ | ⟨rfl, rfl⟩
    · rw [show getPosition columns "Mask".toList = 7 by decide +kernel]; rfl
    · rw [show getPosition columns "Iface".toList = 0 by decide +kernel]; rfl
    · rw [show getPosition columns "Destination".toList = 1 by decide +kernel]; rfl
    · rw [show getPosition columns "Gateway".toList = 2 by decide +kernel]; rfl
    · rw [show getPosition columns "Flags".toList = 3 by decide +kernel]; rfl
    · rw [show getPosition columns "RefCnt".toList = 4 by decide +kernel]; rfl
    · rw [show getPosition columns "Use".toList = 5 by decide +kernel]; rfl
    · rw [show getPosition columns "Metric".toList = 6 by decide +kernel]; rfl
    · rw [show getPosition columns "MTU".toList = 8 by decide +kernel]; rfl
    · rw [show getPosition columns "Window".toList = 9 by decide +kernel]; rfl
    · rw [show getPosition columns "IRTT".toList = 10 by decide +kernel]; rfl
  have he : ∀ (title v : Str), (title, v) ∈ routeCells k →
      getValue row (getPosition titles title) = getValue (lineWords k) (getPosition columns title) :=
    fun title v hp => (hc title v hp).trans (hk title v hp).symm
  unfold routeCells routeCellsNoMask routeNumbers at he
  simp only [List.mem_cons, List.not_mem_nil, or_false, Prod.mk.injEq] at he
  unfold readRoute
  rw [he "Iface".toList k.iface (by simp), he "Destination".toList (hexLittle k.destination) (by simp),
    he "Gateway".toList (hexLittle k.gateway) (by simp), he "Flags".toList (hex16 k.flags) (by simp),
    he "RefCnt".toList (signedStr k.refcnt) (by simp), he "Use".toList (dec k.use) (by simp),
    he "Metric".toList (signedStr k.metric) (by simp), he "MTU".toList (signedStr k.mtu) (by simp),
    he "Window".toList (dec k.window) (by simp), he "IRTT".toList (dec k.irtt) (by simp),
    he "Mask".toList (hexLittle k.mask) (by simp)]

theorem getIpv4Routes_table {titles : List Str} {rows : List (List Str)} {file : Str} (h : TableText titles rows file)
    (hall : ∀ t ∈ routeColumnTitles, t ∈ titles) : getIpv4Routes file = readRoutes (getPosition titles) rows := by
  have hp : ∀ t ∈ routeColumnTitles, getPosition titles t ≠ -1 := by
    intro t ht
    have := getPosition_mem (hall t ht)
    omega
  unfold getIpv4Routes
  rw [readLines_table h]
  dsimp only
  rw [if_neg]
  rintro (h | h | h)
  · exact hp _ (by decide +kernel) h
  · exact hp _ (by decide +kernel) h
  · exact hp _ (by decide +kernel) h

/-! ## C136 -/

/-- **C136**: whatever the order of the columns, whatever other columns there are and whatever the blanks, the routes are
those which are read from the table of the kernel. -/
theorem C136_columns (titles : List Str) (rows : List (List Str)) (file : Str) (ks : List KernelRoute)
    (hf : TableText titles rows file) (hall : ∀ t ∈ routeColumnTitles, t ∈ titles) (hk : ∀ k ∈ ks, KernelRouteOk k)
    (hrows : List.Forall₂ (fun row k => ∀ p ∈ routeCells k, IsCell titles row p.1 p.2) rows ks) (pad : Nat) :
    getIpv4Routes file = getIpv4Routes (routeTable pad (ks.map fun k => (k, pad))) := by
  rw [getIpv4Routes_table hf hall]
  unfold getIpv4Routes routeTable
  rw [readLines_header]
  dsimp only
  rw [if_neg (by decide +kernel)]
  clear hf
  induction hrows with
  | nil => rfl
  | @cons row k rows ks hr _ ih =>
    rw [List.map_cons, List.map_cons, List.flatten_cons, readLines_line (hk k List.mem_cons_self), readRoutes, readRoutes,
      readRoute_cells hr, ih fun x hx => hk x (List.mem_cons_of_mem _ hx)]

/-- **C136**: so that each line is the route which the words under the titles say. -/
theorem C136_decodes (titles : List Str) (rows : List (List Str)) (file : Str) (ks : List KernelRoute)
    (hf : TableText titles rows file) (hall : ∀ t ∈ routeColumnTitles, t ∈ titles)
    (hk : ∀ k ∈ ks, KernelRouteOk k ∧ k.flags.toNat < 0xA000)
    (hrows : List.Forall₂ (fun row k => ∀ p ∈ routeCells k, IsCell titles row p.1 p.2) rows ks) :
    ∃ l, getIpv4Routes file = .ok l ∧ List.Forall₂ Decodes ks l := by
  obtain ⟨l, h1, h2⟩ := C53_table 0 (ks.map fun k => (k, 0)) (by
    intro r hr
    obtain ⟨k, hm, rfl⟩ := List.mem_map.1 hr
    exact hk k hm)
  refine ⟨l, (C136_columns titles rows file ks hf hall (fun k hm => (hk k hm).1) hrows 0).trans h1, ?_⟩
  rw [List.forall₂_map_left_iff] at h2
  exact h2

/-- **C136**: what follows the last new line is not read. -/
theorem C136_truncated (file tail : Str) (hend : file = [] ∨ file.getLast? = some '\n') (h : '\n' ∉ tail) :
    getIpv4Routes (file ++ tail) = getIpv4Routes file := by
  have key : ∀ (n : Nat) (file : Str), file.length ≤ n → (file = [] ∨ file.getLast? = some '\n') →
      readLines (file ++ tail) [] [] = readLines file [] [] := by
    intro n
    induction n with
    | zero =>
      intro file hl _
      rw [List.length_eq_zero_iff.1 (Nat.le_zero.1 hl), List.nil_append, readLines_no_newline tail h]
      rfl
    | succ n ih =>
      intro file hl hend
      rcases hend with rfl | hend
      · rw [List.nil_append, readLines_no_newline tail h]
        rfl
      · obtain ⟨line, rest, rfl, hline⟩ := List.eq_append_cons_of_mem (List.mem_of_getLast? hend)
        rw [List.append_assoc, List.cons_append, readLines_scan hline, readLines_scan hline, readLines, readLines, if_pos rfl, if_pos rfl,
          ih rest]
        · rw [List.length_append, List.length_cons] at hl
          omega
        · cases rest with
          | nil => exact .inl rfl
          | cons c rest =>
            rw [List.getLast?_append] at hend
            rw [List.getLast?_cons_cons] at hend
            refine .inr ?_
            cases hx : (c :: rest).getLast? with
            | none => exact absurd (List.getLast?_eq_none_iff.1 hx) (List.cons_ne_nil _ _)
            | some y =>
              rw [hx] at hend
              exact hend
  unfold getIpv4Routes
  rw [key _ file (Nat.le_refl _) hend]

/-- **C136**: a line without a word in one of the columns, but those of the interface and of the mask, makes the whole
table unreadable. -/
theorem C136_short (titles : List Str) (rows : List (List Str)) (file : Str) (hf : TableText titles rows file)
    (hall : ∀ t ∈ routeColumnTitles, t ∈ titles) (row : List Str) (hrow : row ∈ rows) (title : Str) (ht : title ∈ routeColumnTitles)
    (hi : title ≠ "Iface".toList) (hm : title ≠ "Mask".toList) (hnone : ∀ v, ¬ IsCell titles row title v) (l : List Route) :
    getIpv4Routes file ≠ .ok l := by
  rw [getIpv4Routes_table hf hall]
  have hv := getValue_none (hall _ ht) hnone
  have hhex : ∀ a, hexToAddr [] ≠ .ok a := fun a h => nomatch h
  have hstol : ∀ a, stol [] ≠ .ok a := by
    intro a h
    unfold stol at h
    cases h
  have hr : ∀ r, readRoute (getPosition titles) row ≠ .ok r := by
    intro r h
    unfold readRoute at h
    obtain ⟨v0, h0, h⟩ := bind_eq_ok h
    obtain ⟨x1, h1, h⟩ := bind_eq_ok h
    obtain ⟨x2, h2, h⟩ := bind_eq_ok h
    obtain ⟨x3, h3, h⟩ := bind_eq_ok h
    obtain ⟨x4, h4, h⟩ := bind_eq_ok h
    obtain ⟨x5, h5, h⟩ := bind_eq_ok h
    obtain ⟨x6, h6, h⟩ := bind_eq_ok h
    obtain ⟨x7, h7, h⟩ := bind_eq_ok h
    obtain ⟨x8, h8, h⟩ := bind_eq_ok h
    obtain ⟨x9, h9, h⟩ := bind_eq_ok h
    unfold routeColumnTitles at ht
    simp only [List.mem_cons, List.not_mem_nil, or_false] at ht
    rcases ht with rfl | rfl | rfl | rfl | rfl | rfl | rfl | rfl | rfl | rfl | rfl
    · exact hi rfl
    · rw [hv] at h1; exact hhex _ h1
    · rw [hv] at h2; exact hhex _ h2
    · rw [hv] at h3; exact hstol _ h3
    · rw [hv] at h4; exact hstol _ h4
    · rw [hv] at h5; exact hstol _ h5
    · rw [hv] at h6; exact hstol _ h6
    · exact hm rfl
    · rw [hv] at h7; exact hstol _ h7
    · rw [hv] at h8; exact hstol _ h8
    · rw [hv] at h9; exact hstol _ h9
  clear hf
  induction rows generalizing l with
  | nil => cases hrow
  | cons x rows ih =>
    intro h
    rw [readRoutes] at h
    obtain ⟨r, h1, h⟩ := bind_eq_ok h
    obtain ⟨l', h2, _⟩ := bind_eq_ok h
    rcases List.mem_cons.1 hrow with rfl | hm
    · exact hr r h1
    · exact ih hm l' h2

/-- **C136**: a line without a word in the column of the mask is a route to one host: the mask is full. -/
theorem C136_no_mask (titles : List Str) (rows : List (List Str)) (file : Str) (ks : List KernelRoute)
    (hf : TableText titles rows file) (hall : ∀ t ∈ routeColumnTitles, t ∈ titles)
    (hk : ∀ k ∈ ks, KernelRouteOk k ∧ k.flags.toNat < 0xA000)
    (hrows : List.Forall₂ (fun row k => (∀ p ∈ routeCellsNoMask k, IsCell titles row p.1 p.2) ∧ ∀ v, ¬ IsCell titles row "Mask".toList v) rows ks) :
    ∃ l, getIpv4Routes file = .ok l ∧ List.Forall₂ (fun k r => r.interfaceName = k.iface
      ∧ r.destination.getIpv4 = .ok { family := 2, port := 0, addr := k.destination, zero := Vector.replicate 8 0 }
      ∧ r.destination.getMask = Vector.replicate 16 255 ∧ r.destination.maskDefined = false
      ∧ r.gateway.getIpv4 = .ok { family := 2, port := 0, addr := k.gateway, zero := Vector.replicate 8 0 }) ks l := by
  rw [getIpv4Routes_table hf hall]
  clear hf
  have hone : ∀ (row : List Str) (k : KernelRoute), KernelRouteOk k → k.flags.toNat < 0xA000 →
      (∀ p ∈ routeCellsNoMask k, IsCell titles row p.1 p.2) → (∀ v, ¬ IsCell titles row "Mask".toList v) →
      ∃ r, readRoute (getPosition titles) row = .ok r ∧ r.interfaceName = k.iface
      ∧ r.destination.getIpv4 = .ok { family := 2, port := 0, addr := k.destination, zero := Vector.replicate 8 0 }
      ∧ r.destination.getMask = Vector.replicate 16 255 ∧ r.destination.maskDefined = false
      ∧ r.gateway.getIpv4 = .ok { family := 2, port := 0, addr := k.gateway, zero := Vector.replicate 8 0 } := by
    rintro row k ⟨-, -, hr, hu, hm, ht, hw, hi⟩ hfl hc hno
    have hc : ∀ (title v : Str), (title, v) ∈ routeCellsNoMask k → getValue row (getPosition titles title) = .ok v :=
      fun title v hp => getValue_cell (hc _ hp)
    unfold routeCellsNoMask routeNumbers at hc
    simp only [List.mem_cons, List.not_mem_nil, or_false, Prod.mk.injEq] at hc
    have hv := getValue_none (hall "Mask".toList (by decide +kernel)) hno
    obtain ⟨d, d1, d2, d3⟩ := C01_ipv4_constructor (in4 k.destination) rfl
    obtain ⟨g, g1, g2, -⟩ := C01_ipv4_constructor (in4 k.gateway) rfl
    have long : ∀ {n : Int}, IsCInt n → -9223372036854775808 ≤ n ∧ n ≤ 9223372036854775807 := by
      rintro n ⟨h1, h2⟩
      exact ⟨by omega, by omega⟩
    unfold readRoute
    rw [hc "Iface".toList k.iface (by simp), hc "Destination".toList (hexLittle k.destination) (by simp),
      hc "Gateway".toList (hexLittle k.gateway) (by simp), hc "Flags".toList (hex16 k.flags) (by simp),
      hc "RefCnt".toList (signedStr k.refcnt) (by simp), hc "Use".toList (dec k.use) (by simp),
      hc "Metric".toList (signedStr k.metric) (by simp), hc "MTU".toList (signedStr k.mtu) (by simp),
      hc "Window".toList (dec k.window) (by simp), hc "IRTT".toList (dec k.irtt) (by simp), hv]
    simp only [Res.bind_ok, hexToAddr_little, d1, g1, stol_flags k.flags hfl, stol_signedStr (long hr).1 (long hr).2,
      stol_signedStr (long hm).1 (long hm).2, stol_signedStr (long ht).1 (long ht).2,
      stol_dec (show k.use ≤ 9223372036854775807 by omega), stol_dec (show k.window ≤ 9223372036854775807 by omega),
      stol_dec (show k.irtt ≤ 9223372036854775807 by omega), ne_eq, not_true, if_false]
    refine ⟨_, rfl, rfl, d2, ?_, ?_, g2⟩
    · exact d3.mask.trans (by decide)
    · exact d3.maskDefined
  induction hrows with
  | nil => exact ⟨[], rfl, .nil⟩
  | @cons row k rows ks hr _ ih =>
    obtain ⟨l, h1, h2⟩ := ih fun x hx => hk x (List.mem_cons_of_mem _ hx)
    obtain ⟨r, h3, h4⟩ := hone row k (hk k List.mem_cons_self).1 (hk k List.mem_cons_self).2 hr.1 hr.2
    exact ⟨r :: l, by rw [readRoutes, h3, Res.bind_ok, h1]; rfl, .cons h4 h2⟩

/-! ### Samples -/

/-- The eleven columns in another order, with one more. -/
def otherTitles : List Str :=
  ["Mask".toList, "Flags".toList, "Iface".toList, "Table".toList, "Gateway".toList, "Destination".toList, "IRTT".toList, "Use".toList,
   "RefCnt".toList, "MTU".toList, "Metric".toList, "Window".toList]

/-- The words of a route under these titles. -/
def otherRow : List Str :=
  ["00FFFFFF".toList, "0003".toList, "eth1".toList, "main".toList, "FE01A8C0".toList, "0001A8C0".toList, "7".toList, "5".toList,
   "1".toList, "1500".toList, "100".toList, "6".toList]

/-- The route. -/
def otherRoute : KernelRoute where
  iface := "eth1".toList
  destination := #v[192, 168, 1, 0]
  gateway := #v[192, 168, 1, 254]
  flags := 3
  refcnt := 1
  use := 5
  metric := 100
  mask := #v[255, 255, 255, 0]
  mtu := 1500
  window := 6
  irtt := 7

theorem otherRow_cells : ∀ p ∈ routeCells otherRoute, IsCell otherTitles otherRow p.1 p.2 := by
  intro p hp
  refine ⟨(getPosition otherTitles p.1).toNat, ?_⟩
  revert p
  decide +kernel

/-- A line with one blank after each word. -/
def plainLine (ws : List Str) : Str := ws.flatMap fun w => w ++ [' ']

theorem plainLine_text : ∀ (ws : List Str), (∀ w ∈ ws, w ≠ [] ∧ NoBlank w) → LineText ws (plainLine ws)
  | [], _ => .last (lead := []) (lost := []) (fun _ h => nomatch h) (fun _ h => nomatch h)
  | w :: ws, h => by
    have hw := h w List.mem_cons_self
    have := LineText.word (lead := []) (b := ' ') (fun _ h => nomatch h) hw.1
      (fun c hc => ⟨fun hb => hb.elim (hw.2 c hc).1 (hw.2 c hc).2.1, (hw.2 c hc).2.2⟩) (.inl rfl)
      (plainLine_text ws fun x hx => h x (List.mem_cons_of_mem _ hx))
    rw [plainLine, List.flatMap_cons, List.append_assoc, List.singleton_append]
    exact this

example : TableText otherTitles [otherRow] (plainLine otherTitles ++ '\n' :: (plainLine otherRow ++ "\neth".toList))
    ∧ (∀ t ∈ routeColumnTitles, t ∈ otherTitles) ∧ KernelRouteOk otherRoute ∧ otherRoute.flags.toNat < 0xA000
    ∧ (∀ p ∈ routeCells otherRoute, IsCell otherTitles otherRow p.1 p.2) := by
  refine ⟨⟨_, [plainLine otherRow], "eth".toList, plainLine_text _ (by unfold NoBlank; decide +kernel),
    .cons (plainLine_text _ (by unfold NoBlank; decide +kernel)) .nil, by decide +kernel, by decide +kernel⟩, by decide +kernel, ?_, by decide, otherRow_cells⟩
  unfold KernelRouteOk
  decide +kernel

/-- The line without its last two words: no metric. -/
example : TableText otherTitles [otherRow.take 10] (plainLine otherTitles ++ '\n' :: (plainLine (otherRow.take 10) ++ "\n".toList))
    ∧ ∀ v, ¬ IsCell otherTitles (otherRow.take 10) "Metric".toList v := by
  refine ⟨⟨_, [plainLine (otherRow.take 10)], [], plainLine_text _ (by unfold NoBlank; decide +kernel),
    .cons (plainLine_text _ (by unfold NoBlank; decide +kernel)) .nil, by decide +kernel, by decide +kernel⟩, ?_⟩
  rintro v ⟨i, h1, h2, h3⟩
  have h4 := getPosition_first h1 h2
  rw [show getPosition otherTitles "Metric".toList = 10 by decide +kernel] at h4
  have : i = 10 := by omega
  subst this
  cases h3

end Verif
