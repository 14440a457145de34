import Verif.Props.Ifaces
import Verif.Props.Route

/-!
# C76: what `ipv4-routes` prints
-/

namespace Verif

open Spec Tools Route

/-! ### One line -/

theorem dotted_bytes (b : Bytes4) : Inet.ntop4 b = dottedBytes b := by
  rw [dottedBytes, ← decStr_dec, ← decStr_dec, ← decStr_dec, ← decStr_dec, Inet.ntop4]
  simp only [List.append_assoc, List.cons_append]

/-- An IPv4 address known by its bytes. -/
theorem ipv4_bytes {a : Addr} {s : SockaddrIn} (db : NetDb) (h : a.getIpv4 = .ok s) :
    a.toIpv4or6String db STRING_IP_ADDRESS = .ok (Inet.ntop4 s.addr) := by
  unfold Addr.getIpv4 at h
  by_cases h4 : a.isIpv4 = true
  · rw [if_pos h4] at h
    cases h
    rw [Addr.toIpv4or6String, if_pos h4, toIpv4String_address, if_pos h4]
    rfl
  · rw [if_neg h4] at h
    cases h

/-- The last bytes of the mask. -/
theorem mask_bytes {m : Bytes16} {b : Bytes4} (h : m.toList = List.replicate 12 255 ++ b.toList) : #v[m[12], m[13], m[14], m[15]] = b := by
  have e : ∀ i (hi : i < 4), b[i] = m[12 + i] := by
    intro i hi
    have h1 : m.toList[12 + i]'(by simp; omega) = (List.replicate 12 255 ++ b.toList)[12 + i]'(by simp; omega) := by
      simp only [h]
    rw [List.getElem_append_right (by simp)] at h1
    simp only [Vector.getElem_toList] at h1
    rw [h1]
    simp
  refine Vector.ext fun i hi => ?_
  rw [e i hi]
  rcases i with _ | _ | _ | _ | i
  · rfl
  · rfl
  · rfl
  · rfl
  · omega

theorem intStr_signed (n : Int) : intStr n = signedStr n := by
  rw [intStr, signedStr, decStr_dec]

theorem signed_word (n : Int) : IsWord (signedStr n) := by
  have h := dec_word n.natAbs
  rw [signedStr]
  split
  · refine ⟨List.cons_ne_nil _ _, ?_, ?_⟩
    · intro hc
      rcases List.mem_cons.1 hc with hc | hc
      · exact absurd hc (by decide)
      · exact h.2.1 hc
    · intro hc
      rcases List.mem_cons.1 hc with hc | hc
      · exact absurd hc (by decide)
      · exact h.2.2 hc
  · exact h

theorem signed_nat (n : Nat) : signedStr (n : Int) = dec n := by
  rw [signedStr, if_neg (by omega)]
  rfl

theorem dec_bound {n : Nat} (h : (dec n).length < 8) : n < 2147483648 := by
  have := (Nat.length_toDigits_le_iff (b := 10) (n := n) (k := 7) (by omega) (by omega)).1 (Nat.le_of_lt_succ h)
  omega

theorem letters {k : KernelRoute} {r : Route} (h : Decodes k r) (h8 : k.flags.toNat < 8) : r.flagsToString = routeLetters k.flags := by
  have small : ∀ n : Fin 8, (flagNames.filterMap fun fn =>
      if BitVec.ofInt 32 (Nat.ofDigitChars 10 ((hex16 (BitVec.ofNat 16 n.val)).takeWhile Char.isDigit) 0) &&& fn.1 ≠ 0 then some fn.2 else none)
        = routeLetters (BitVec.ofNat 16 n.val) := by decide +kernel
  have := small ⟨k.flags.toNat, h8⟩
  rw [BitVec.ofNat_toNat, BitVec.setWidth_eq] at this
  rw [flagsToString, h.flags]
  exact this

theorem letters_word {f : BitVec 16} (h8 : f.toNat < 8) (hodd : f.toNat % 2 = 1) : IsWord (routeLetters f) ∧ (routeLetters f).length < 8 := by
  have small : ∀ n : Fin 8, n.val % 2 = 1 → (routeLetters (BitVec.ofNat 16 n.val) ≠ [] ∧ ' ' ∉ routeLetters (BitVec.ofNat 16 n.val)
      ∧ '\n' ∉ routeLetters (BitVec.ofNat 16 n.val)) ∧ (routeLetters (BitVec.ofNat 16 n.val)).length < 8 := by decide +kernel
  have := small ⟨f.toNat, h8⟩ hodd
  rw [BitVec.ofNat_toNat, BitVec.setWidth_eq] at this
  exact this

/-- The flags of a usable route: it is up, may have a gateway and may lead to one host. -/
def UsualFlags (f : BitVec 16) : Prop := f.toNat < 8 ∧ f.toNat % 2 = 1

/-- The line of a route, whatever the lengths of its values. -/
theorem route_columns (db : NetDb) {k : KernelRoute} {r : Route} (h : Decodes k r) (hok : KernelRouteOk k) (hf : UsualFlags k.flags)
    (hint : k.use < 2147483648 ∧ k.window < 2147483648 ∧ k.irtt < 2147483648) :
    ∃ s, Tools.routeLine db r = .ok (s ++ ['\n']) ∧ '\n' ∉ s ∧ wordsOf s = runTogether (routeWidths.zip (routeRow k)) := by
  have hw := letters_word hf.1 hf.2
  have hm : Inet.ntop4 #v[r.destination.mask[12], r.destination.mask[13], r.destination.mask[14], r.destination.mask[15]] = dottedBytes k.mask := by
    rw [← dotted_bytes, mask_bytes (m := r.destination.mask) h.mask]
  have hn : ∀ b : Bytes4, IsWord (dottedBytes b) := by
    intro b
    rw [← dotted_bytes]
    exact ntop4_word b
  have hcols : routeColumns db r = .ok (routeWidths.zip (routeRow k)) := by
    rw [routeColumns, ipv4_bytes db h.destination, Res.bind_ok, ipv4_bytes db h.gateway, Res.bind_ok, hm, h.name, letters h hf.1,
      h.referenceCount, h.use hint.1, h.metric, h.mtu, h.window hint.2.1, h.irtt hint.2.2, dotted_bytes, dotted_bytes]
    simp only [intStr_signed, signed_nat]
    rfl
  have hall : ∀ x ∈ routeWidths.zip (routeRow k), IsWord x.2 := by
    intro x hx
    simp only [routeWidths, routeRow, List.zip_cons_cons, List.zip_nil_left, List.mem_cons, List.not_mem_nil, or_false] at hx
    rcases hx with rfl | rfl | rfl | rfl | rfl | rfl | rfl | rfl | rfl | rfl | rfl
    · exact ⟨hok.1, fun hc => (hok.2.1 _ hc).1 rfl, fun hc => (hok.2.1 _ hc).2.2 rfl⟩
    · exact hn _
    · exact hn _
    · exact hw.1
    · exact signed_word _
    · exact dec_word _
    · exact signed_word _
    · exact hn _
    · exact signed_word _
    · exact dec_word _
    · exact dec_word _
  exact ⟨_, by rw [Tools.routeLine, hcols, Res.bind_ok], columns_newline _ fun x hx => (hall x hx).2.2,
    words_together _ fun x hx => ⟨(hall x hx).1, (hall x hx).2.1⟩⟩

/-- The values of a route are the words of its line exactly when all but the last one leave a blank. -/
theorem columns_row {k : KernelRoute} (hf : UsualFlags k.flags) :
    runTogether (routeWidths.zip (routeRow k)) = routeRow k ↔ k.iface.length < 8 ∧ (signedStr k.refcnt).length < 8 ∧ (dec k.use).length < 8
      ∧ (signedStr k.metric).length < 8 ∧ (signedStr k.mtu).length < 8 ∧ (dec k.window).length < 8 := by
  have hn : ∀ b : Bytes4, (dottedBytes b).length < 16 := by
    intro b
    rw [← dotted_bytes]
    exact Nat.lt_succ_of_le (Inet.ntop4_length b)
  have hlen : (routeWidths.zip (routeRow k)).length = (routeRow k).length := rfl
  have e : (∀ x ∈ (routeWidths.zip (routeRow k)).dropLast, x.2.length < x.1) ↔ k.iface.length < 8 ∧ (signedStr k.refcnt).length < 8
      ∧ (dec k.use).length < 8 ∧ (signedStr k.metric).length < 8 ∧ (signedStr k.mtu).length < 8 ∧ (dec k.window).length < 8 := by
    simp only [routeWidths, routeRow, List.zip_cons_cons, List.zip_nil_left, List.dropLast_cons_cons, List.dropLast_singleton, List.forall_mem_cons]
    have hw := (letters_word hf.1 hf.2).2
    constructor
    · rintro ⟨h1, -, -, -, h2, h3, h4, -, h5, h6, -⟩
      exact ⟨h1, h2, h3, h4, h5, h6⟩
    · rintro ⟨h1, h2, h3, h4, h5, h6⟩
      exact ⟨h1, hn _, hn _, hw, h2, h3, h4, hn _, h5, h6, fun _ h => nomatch h⟩
  rw [← e]
  constructor
  · intro h
    refine (together_iff _).1 ?_
    rw [h, hlen]
  · intro h
    rw [together_fits _ h]
    rfl

/-! ### The loop -/

/-- The routes which are shown. -/
def shownRoutes (o : RoutesOptions) (rs : List (KernelRoute × Nat)) : List (KernelRoute × Nat) :=
  rs.filter fun k => o.showDefault = false ∨ k.1.destination = #v[0, 0, 0, 0]

/-- The values of the route are those of an `int`. -/
def IntValues (k : KernelRoute) : Prop := k.use < 2147483648 ∧ k.window < 2147483648 ∧ k.irtt < 2147483648

theorem fits_int {k : KernelRoute} (h : FitsColumns k) : IntValues k := ⟨dec_bound h.2.2.1, dec_bound h.2.2.2.2.2.1, dec_bound h.2.2.2.2.2.2⟩

theorem loop_routes (db : NetDb) (o : RoutesOptions) {rs : List (KernelRoute × Nat)} {l : List Route}
    (h : List.Forall₂ (fun k r => Decodes k.1 r) rs l)
    (hok : ∀ k ∈ shownRoutes o rs, KernelRouteOk k.1 ∧ UsualFlags k.1.flags ∧ IntValues k.1) :
    ∃ lines : List Str, Writes (routesLoop db o l) { out := lines.flatMap (· ++ ['\n']), err := [] } (.ok ())
      ∧ (∀ s ∈ lines, '\n' ∉ s) ∧ lines.map wordsOf = (shownRoutes o rs).map fun k => runTogether (routeWidths.zip (routeRow k.1)) := by
  induction h with
  | nil => exact ⟨[], writes_pure (), (fun _ h => by cases h), rfl⟩
  | @cons k r rs l hkr _ ih =>
    rw [routesLoop]
    by_cases hs : o.showDefault = false ∨ k.1.destination = #v[0, 0, 0, 0]
    · have e : shownRoutes o (k :: rs) = k :: shownRoutes o rs := List.filter_cons_of_pos (by simpa using hs)
      rw [e] at hok ⊢
      obtain ⟨lines, h1, h2, h3⟩ := ih fun x hx => hok x (List.mem_cons_of_mem _ hx)
      obtain ⟨k1, k2, k3⟩ := hok k List.mem_cons_self
      obtain ⟨s, s1, s2, s3⟩ := route_columns db hkr k1 k2 k3
      have hc : (!o.showDefault || r.destination.isDefault) = true := by
        rw [Bool.or_eq_true, Bool.not_eq_true', decodes_default hkr]
        exact hs
      rw [if_pos hc, s1]
      refine ⟨s :: lines, ?_, ?_, by rw [List.map_cons, List.map_cons, s3, h3]⟩
      · rw [List.flatMap_cons]
        exact writes_bind (writes_lift (Res.ok (s ++ ['\n']))) (f := fun s => SM.bind (print s) fun _ => routesLoop db o l)
          (writes_bind (writes_print (s ++ ['\n'])) (f := fun _ => routesLoop db o l) h1)
      · intro x hx
        rcases List.mem_cons.1 hx with rfl | hx
        · exact s2
        · exact h2 x hx
    · have e : shownRoutes o (k :: rs) = shownRoutes o rs := List.filter_cons_of_neg (by simpa using hs)
      rw [e] at hok ⊢
      have hc : ¬ (!o.showDefault || r.destination.isDefault) = true := by
        rw [Bool.or_eq_true, Bool.not_eq_true', decodes_default hkr]
        exact hs
      rw [if_neg hc]
      exact ih hok

theorem routes_title : wordsOf routesHeaders.dropLast = routesTitles ∧ '\n' ∉ routesHeaders.dropLast := by
  have e : routesHeaders.dropLast = ([8, 16, 16, 8, 8, 8, 8, 16, 8, 8, 8].zip routesTitles).flatMap fun x => setw x.1 x.2 := by
    decide +kernel
  rw [e]
  exact ⟨by rw [words_columns _ (by decide +kernel)]; rfl, columns_newline _ (by decide +kernel)⟩

/-! ## C76 -/

/-- C76 at full strength: the words of the lines are the values of the routes of the kernel. -/
def C76_claim : Prop :=
  ∀ (db : NetDb) (pad : Nat) (rs : List (KernelRoute × Nat)), rs ≠ [] → (∀ k ∈ rs, KernelRouteOk k.1 ∧ UsualFlags k.1.flags) →
    ∃ w, routesMain db (routeTable pad rs) [] = (w, .ok 0)
      ∧ (outputLines w.out).map wordsOf = routesTitles :: rs.map fun k => routeRow k.1

theorem run_routes (db : NetDb) (pad : Nat) (o : RoutesOptions) (rs : List (KernelRoute × Nat)) (hrs : rs ≠ [])
    (hall : ∀ k ∈ rs, KernelRouteOk k.1 ∧ k.1.flags.toNat < 0xA000)
    (hok : ∀ k ∈ shownRoutes o rs, UsualFlags k.1.flags ∧ IntValues k.1) :
    ∃ w, routesRun db (routeTable pad rs) o .empty = (w, .ok 0) ∧ w.err = []
      ∧ (outputLines w.out).map wordsOf
        = (if o.hideHeaders then [] else [routesTitles]) ++ (shownRoutes o rs).map fun k => runTogether (routeWidths.zip (routeRow k.1)) := by
  obtain ⟨l, hl, hd⟩ := C53_table pad rs hall
  have hne : l ≠ [] := by
    intro h
    rw [h] at hd
    cases hd
    exact hrs rfl
  obtain ⟨lines, h1, h2, h3⟩ := loop_routes db o hd fun k hk => ⟨(hall k (List.mem_filter.1 hk).1).1, hok k hk⟩
  have h4 := writes_bind h1 (f := fun _ => SM.pure (0 : Int)) (writes_pure 0)
  have htitle : Writes (if !o.hideHeaders then print routesHeaders else SM.pure ())
      { out := (if o.hideHeaders then [] else [routesHeaders.dropLast]).flatMap (· ++ ['\n']), err := [] } (.ok ()) := by
    cases o.hideHeaders with
    | true => exact writes_pure ()
    | false =>
      have e : routesHeaders = [routesHeaders.dropLast].flatMap (· ++ ['\n']) := by decide +kernel
      have := writes_print routesHeaders
      rw [if_pos (by decide), if_neg (by decide), ← e]
      exact this
  have h5 := writes_bind htitle (f := fun _ => SM.bind (routesLoop db o l) fun _ => SM.pure 0) h4
  have hrun : routesRun db (routeTable pad rs) o .empty
      = ({ out := ((if o.hideHeaders then [] else [routesHeaders.dropLast]) ++ lines).flatMap (· ++ ['\n']), err := [] }, .ok 0) := by
    rw [routesRun, hl]
    show SM.bind (lift (Res.ok l)) _ _ = _
    rw [SM.bind, lift]
    dsimp only
    rw [if_neg hne, h5]
    simp [Output.empty]
  refine ⟨_, hrun, rfl, ?_⟩
  rw [lines_written, List.map_append, h3]
  · congr 1
    split
    · rfl
    · rw [List.map_singleton, routes_title.1]
  · intro s hs
    rcases List.mem_append.1 hs with hs | hs
    · split at hs
      · cases hs
      · rw [List.mem_singleton.1 hs]
        exact routes_title.2
    · exact h2 s hs

/-- **C76**: the tool writes one line per route of the kernel, in its order, under a line of titles unless it is hidden; the words
of a line are the values of the route, run together where one of them fills its column, and they are the values exactly when
each of them but the last one leaves a blank. With `--default`, the routes which are
written are those of which the destination is `0.0.0.0`, whatever their mask. -/
theorem C76_lines_exact (db : NetDb) (pad : Nat) (rs : List (KernelRoute × Nat)) (hrs : rs ≠ []) (args : List Str)
    (hargs : ∀ a ∈ args, a = "-d".toList ∨ a = "--default".toList ∨ a = "--hide-headers".toList)
    (hall : ∀ k ∈ rs, KernelRouteOk k.1 ∧ UsualFlags k.1.flags ∧ IntValues k.1) :
    ∃ w, routesMain db (routeTable pad rs) args = (w, .ok 0) ∧ w.err = []
      ∧ ((outputLines w.out).map wordsOf
        = (if "--hide-headers".toList ∈ args then [] else [routesTitles])
          ++ (rs.filter fun k => "-d".toList ∈ args ∨ "--default".toList ∈ args → k.1.destination = #v[0, 0, 0, 0]).map
            fun k => runTogether (routeWidths.zip (routeRow k.1)))
      ∧ ∀ k ∈ rs, runTogether (routeWidths.zip (routeRow k.1)) = routeRow k.1 ↔ k.1.iface.length < 8 ∧ (signedStr k.1.refcnt).length < 8
        ∧ (dec k.1.use).length < 8 ∧ (signedStr k.1.metric).length < 8 ∧ (signedStr k.1.mtu).length < 8 ∧ (dec k.1.window).length < 8 := by
  have key : ∀ (args : List Str) (o : RoutesOptions),
      (∀ a ∈ args, a = "-d".toList ∨ a = "--default".toList ∨ a = "--hide-headers".toList) →
      routesArgs args o = .inl { showDefault := o.showDefault || decide ("-d".toList ∈ args ∨ "--default".toList ∈ args)
                                 hideHeaders := o.hideHeaders || decide ("--hide-headers".toList ∈ args) } := by
    intro args
    induction args with
    | nil => intro o _; simp [routesArgs]
    | cons a args ih =>
      intro o h
      have ih := fun o => ih o fun x hx => h x (List.mem_cons_of_mem _ hx)
      obtain ⟨x, y⟩ := o
      rw [routesArgs]
      rcases h a List.mem_cons_self with rfl | rfl | rfl
      all_goals
        simp only [String.toList_inj, String.reduceEq, or_self, if_false, if_true, or_false, or_true, ih, List.mem_cons, true_or,
          false_or, decide_true, Bool.or_true, Bool.true_or]
  rw [routesMain, key args {} hargs]
  dsimp only
  obtain ⟨w, h1, h2, h3⟩ := run_routes db pad
    { showDefault := decide ("-d".toList ∈ args ∨ "--default".toList ∈ args), hideHeaders := decide ("--hide-headers".toList ∈ args) } rs
    hrs (fun k hk => ⟨(hall k hk).1, by have := (hall k hk).2.1.1; omega⟩) (fun k hk => (hall k (List.mem_filter.1 hk).1).2)
  refine ⟨w, h1, h2, ?_, fun k hk => columns_row (hall k hk).2.1⟩
  rw [h3]
  congr 1
  · by_cases hh : "--hide-headers".toList ∈ args
    · rw [if_pos hh, if_pos (by exact decide_eq_true hh)]
    · rw [if_neg hh, if_neg (by exact fun h => hh (of_decide_eq_true h))]
  · congr 1
    refine List.filter_congr fun k _ => ?_
    rw [decide_eq_decide]
    dsimp only
    rw [decide_eq_false_iff_not]
    by_cases hd : "-d".toList ∈ args ∨ "--default".toList ∈ args
    · exact ⟨fun h _ => h.resolve_left (fun h' => h' hd), fun h => .inr (h hd)⟩
    · exact ⟨fun _ h => absurd h hd, fun _ => .inl hd⟩

/-- **C76**: the words of a line are the values of the route, where each of them leaves a blank in its column. -/
theorem C76_lines_partial (db : NetDb) (pad : Nat) (rs : List (KernelRoute × Nat)) (hrs : rs ≠ []) (args : List Str)
    (hargs : ∀ a ∈ args, a = "-d".toList ∨ a = "--default".toList ∨ a = "--hide-headers".toList)
    (hall : ∀ k ∈ rs, KernelRouteOk k.1 ∧ UsualFlags k.1.flags ∧ FitsColumns k.1) :
    ∃ w, routesMain db (routeTable pad rs) args = (w, .ok 0) ∧ w.err = []
      ∧ (outputLines w.out).map wordsOf
        = (if "--hide-headers".toList ∈ args then [] else [routesTitles])
          ++ (rs.filter fun k => "-d".toList ∈ args ∨ "--default".toList ∈ args → k.1.destination = #v[0, 0, 0, 0]).map
            fun k => routeRow k.1 := by
  obtain ⟨w, h1, h2, h3, h4⟩ := C76_lines_exact db pad rs hrs args hargs fun k hk => ⟨(hall k hk).1, (hall k hk).2.1, fits_int (hall k hk).2.2⟩
  refine ⟨w, h1, h2, h3.trans ?_⟩
  congr 1
  refine List.map_congr_left fun k hk => ?_
  have hm := (List.mem_filter.1 hk).1
  obtain ⟨f1, f2, f3, f4, f5, f6, -⟩ := (hall k hm).2.2
  exact (h4 k hm).2 ⟨f1, f2, f3, f4, f5, f6⟩

/-- **C76**: without routes the tool fails with a message. -/
theorem C76_no_routes (db : NetDb) (pad : Nat) (o : RoutesOptions) :
    ∃ w, routesRun db (routeTable pad []) o .empty = (w, .ok 1) ∧ w.out = [] ∧ w.err ≠ [] := by
  obtain ⟨l, hl, hd⟩ := C53_table pad [] (fun _ h => nomatch h)
  cases hd
  rw [routesRun, hl]
  exact ⟨_, rfl, rfl, by decide⟩

/-- **C76**: an unknown option is refused with a message and nothing is listed; so does the help, without a message. -/
theorem C76_other_option (db : NetDb) (file : Str) (pre post : List Str) (a : Str)
    (hpre : ∀ x ∈ pre, x = "-d".toList ∨ x = "--default".toList ∨ x = "--hide-headers".toList)
    (ha : ¬ (a = "-d".toList ∨ a = "--default".toList ∨ a = "--hide-headers".toList)) :
    ∃ w, routesMain db file (pre ++ a :: post) = (w, .ok 1) ∧ w.out = []
      ∧ (¬ (a = "-h".toList ∨ a = "--help".toList) → a <:+: w.err) := by
  have key : ∀ (pre : List Str) (o : RoutesOptions),
      (∀ x ∈ pre, x = "-d".toList ∨ x = "--default".toList ∨ x = "--hide-headers".toList) →
      ∃ w, routesArgs (pre ++ a :: post) o = .inr (w, 1) ∧ w.out = [] ∧ (¬ (a = "-h".toList ∨ a = "--help".toList) → a <:+: w.err) := by
    intro pre
    induction pre with
    | nil =>
      intro o _
      rw [List.nil_append, routesArgs]
      by_cases hh : a = "-h".toList ∨ a = "--help".toList
      · rw [if_pos hh]
        exact ⟨_, rfl, rfl, fun h => absurd hh h⟩
      · rw [if_neg hh, if_neg (fun h => ha (h.elim .inl fun h => .inr (.inl h))), if_neg (fun h => ha (.inr (.inr h)))]
        exact ⟨_, rfl, rfl, fun _ => ⟨_, _, rfl⟩⟩
    | cons x pre ih =>
      intro o h
      have ih := fun o => ih o fun x hx => h x (List.mem_cons_of_mem _ hx)
      rw [List.cons_append, routesArgs]
      rcases h x List.mem_cons_self with rfl | rfl | rfl
      all_goals
        simp only [String.toList_inj, String.reduceEq, or_self, if_false, if_true, or_false, or_true]
        exact ih _
  obtain ⟨w, h1, h2⟩ := key pre {} hpre
  exact ⟨w, by rw [routesMain, h1], h2⟩

example : kernelRoutes ≠ [] ∧ ∀ k ∈ kernelRoutes, KernelRouteOk k.1 ∧ UsualFlags k.1.flags ∧ FitsColumns k.1 := by
  unfold KernelRouteOk UsualFlags FitsColumns kernelRoutes
  decide +kernel

example : printed (routesMain sampleDb (routeTable 30 kernelRoutes) ["-d".toList, "--hide-headers".toList]) = some
    ("eth0    0.0.0.0         192.168.1.254   UG      0       0       100     0.0.0.0         0       0       0       \n".toList, [], 0) := by
  decide +kernel

/-- The name of an interface on many computers. -/
def longRoute : KernelRoute where
  iface := "enp0s31f6".toList
  destination := #v[192, 168, 1, 0]
  gateway := #v[0, 0, 0, 0]
  flags := 1
  refcnt := 0
  use := 0
  metric := 100
  mask := #v[255, 255, 255, 0]
  mtu := 0
  window := 0
  irtt := 0

example : (KernelRouteOk longRoute ∧ UsualFlags longRoute.flags ∧ IntValues longRoute)
    ∧ (runTogether (routeWidths.zip (routeRow longRoute))).take 2 = ["enp0s31f6192.168.1.0".toList, "0.0.0.0".toList] := by
  unfold KernelRouteOk UsualFlags IntValues longRoute
  decide +kernel

/-- C76 fails: a name of eight characters or more runs into the destination. -/
theorem C76_claim_fails : ¬ C76_claim := by
  intro h
  obtain ⟨w, h1, h2⟩ := h sampleDb 1 [(longRoute, 1)] (by decide) (by
    unfold KernelRouteOk UsualFlags longRoute
    decide +kernel)
  have hrun : printed (routesMain sampleDb (routeTable 1 [(longRoute, 1)]) []) = some
      ([routesHeaders.dropLast, "enp0s31f6192.168.1.0     0.0.0.0         U       0       0       100     255.255.255.0   0       0       0       ".toList].flatMap (· ++ ['\n']), [], 0) := by
    decide +kernel
  rw [h1] at hrun
  have hw := (Prod.mk.inj (Option.some.inj hrun)).1
  rw [hw, lines_written _ (by decide +kernel)] at h2
  have := congrArg (fun l => (l.getD 1 []).length) h2
  have e : "enp0s31f6192.168.1.0     0.0.0.0         U       0       0       100     255.255.255.0   0       0       0       ".toList
      = ([(25, "enp0s31f6192.168.1.0"), (16, "0.0.0.0"), (8, "U"), (8, "0"), (8, "0"), (8, "100"), (16, "255.255.255.0"),
        (8, "0"), (8, "0"), (8, "0")].map fun x => (x.1, x.2.toList)).flatMap fun x => setw x.1 x.2 := by decide +kernel
  simp only [List.map_cons, List.map_nil] at this
  rw [e, words_columns _ (by decide +kernel)] at this
  exact absurd this (by decide)

end Verif
