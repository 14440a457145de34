import Verif.Lemmas.ParserProtocol

/-!
# Lemmas about the parser: without masks the masks are full
-/

namespace Verif.Parser

open Spec

/-- The masks of both addresses are full. -/
def Whole (r : Range) : Prop := r.lo.getMaskSize = 128 ∧ r.hi.getMaskSize = 128

/-- A range of one address, with a full mask. -/
def WholeOne (r : Range) : Prop := r.hasFrom = true ∧ r.hasTo = false ∧ Whole r

theorem default_whole : Addr.default.getMaskSize = 128 := by decide +kernel

theorem getMaskSize_congr {a b : Addr} (h : a.mask = b.mask) : a.getMaskSize = b.getMaskSize := by
  rw [Addr.getMaskSize, Addr.getMaskSize, h]

theorem whole_of_one {r : Range} (h : WholeOne r) : Whole r := h.2.2

theorem whole_swap {r : Range} (h : Whole r) : Whole r.swapFromTo := ⟨h.2, h.1⟩

theorem ofIn_mask {sa : SockaddrIn} {a : Addr} (h : Addr.ofIn sa = .ok a) : a.mask = Addr.default.mask ∧ a.protocol = 6 := by
  refine ⟨?_, ofIn_protocol h⟩
  unfold Addr.ofIn Addr.setIpv4 at h
  by_cases hf : sa.family ≠ AF_INET
  · rw [if_pos hf] at h; cases h
  · rw [if_neg hf] at h; cases h; rfl

theorem ofIn6_mask {sa : SockaddrIn6} {a : Addr} (h : Addr.ofIn6 sa = .ok a) : a.mask = Addr.default.mask ∧ a.protocol = 6 := by
  refine ⟨?_, ofIn6_protocol h⟩
  unfold Addr.ofIn6 Addr.setIpv6 at h
  by_cases hf : sa.family ≠ AF_INET6
  · rw [if_pos hf] at h; cases h
  · rw [if_neg hf] at h; cases h; rfl

theorem makeRange_whole {a : Res Addr} {hostname : Str} {protocol : Int} {d : Bool} {r : Range}
    (ha : ∀ b, a = .ok b → b.mask = Addr.default.mask ∧ b.protocol = 6) (h : makeRange a hostname protocol d = .ok r) : WholeOne r := by
  obtain ⟨hk, _⟩ := makeRange_protocol (fun b hb => (ha b hb).2) h
  cases a with
  | throw e => cases h
  | ub w => cases h
  | ok b =>
    obtain ⟨r', h3, h4, h5, _, _, _, h6, _⟩ := makeRange_stands (hostname := hostname) (d := d) (ha b rfl).2 hk
    have last (y : Addr) (h : (do let a ← onLocal (Addr.setPortDefined d) y; pure (Range.setFrom a Range.default)) = Res.ok r) :
        r.hi = Addr.default := by
      rcases h7 : onLocal (Addr.setPortDefined d) y with z | e | w
      · rw [h7] at h
        simp only [Res.bind_ok] at h
        cases h
        rfl
      · rw [h7] at h; cases h
      · rw [h7] at h; cases h
    have hhi : r.hi = Addr.default := by
      rw [makeRange] at h
      simp only [Res.bind_ok] at h
      rcases h1 : onLocal (Addr.setHostname hostname) b with x | e | w
      · rw [h1] at h
        simp only [Res.bind_ok] at h
        split at h
        · rcases h2 : onLocal (Addr.setProtocol protocol) x with y | e | w
          · rw [h2] at h
            exact last y h
          · rw [h2] at h; cases h
          · rw [h2] at h; cases h
        · exact last x h
      · rw [h1] at h; cases h
      · rw [h1] at h; cases h
    rw [h] at h3
    cases h3
    exact ⟨h4, h5, by rw [getMaskSize_congr (h6.trans (ha b rfl).1)]; exact default_whole, by rw [hhi]; exact default_whole⟩

variable {env : ParseEnv} {c : Config}

theorem whole_addrinfoLoop (t : Str) (d : Bool) (l : List AddrInfo) (first : Bool)
    (result : List Range) (hr : All (WholeOne) result) : Post c (addrinfoLoop t d l first result) (All (WholeOne)) := by
  induction l generalizing first result with
  | nil => exact post_pure c hr
  | cons x l ih =>
    cases x with
    | inet len protocol sa =>
      rw [addrinfoLoop]
      split
      · exact post_bind (post_emit c _) fun _ _ => ih _ _ hr
      · refine post_bind (R := WholeOne) (post_lift c fun r h => ?_) fun r h => ih _ _ (all_append hr (all_single h))
        exact makeRange_whole (fun _ => ofIn_mask) h
    | inet6 len protocol sa =>
      rw [addrinfoLoop]
      split
      · exact post_bind (post_emit c _) fun _ _ => ih _ _ hr
      · refine post_bind (R := WholeOne) (post_lift c fun r h => ?_) fun r h => ih _ _ (all_append hr (all_single h))
        exact makeRange_whole (fun _ => ofIn6_mask) h
    | other family =>
      rw [addrinfoLoop]
      split
      · exact post_bind (post_emit c _) fun _ _ => ih _ _ hr
      · exact ih _ _ hr

theorem whole_numericAddress (t : Str) (port : Int) (d : Bool) :
    Post c (numericAddress t port d []) (All (WholeOne)) := by
  rw [numericAddress]
  refine post_config ?_
  dsimp only
  split
  · refine post_bind (R := WholeOne) (post_lift c fun r h => ?_) fun r h => post_pure c (all_single h)
    exact makeRange_whole (fun _ => ofIn_mask) h
  · split
    · refine post_bind (R := WholeOne) (post_lift c fun r h => ?_) fun r h => post_pure c (all_single h)
      exact makeRange_whole (fun _ => ofIn6_mask) h
    · exact post_emit_then _

theorem whole_parseAddressPort (address port : Str) (v6 : Bool) :
    Post c (parseAddressPort env address port [] v6) (All (WholeOne)) := by
  rw [parseAddressPort]
  refine post_config ?_
  dsimp only
  split
  · exact post_emit_then _
  split
  · exact post_emit_then _
  cases hf : c.flags .addressLookup with
  | true =>
    rw [if_pos rfl, lookupAddress]
    refine post_config ?_
    split
    · exact post_emit_then _
    · rename_i l hl
      exact whole_addrinfoLoop _ _ l _ _ (all_nil _)
  | false =>
    rw [if_neg Bool.false_ne_true, noLookupAddress]
    refine post_getAllow (post_getAllow ?_)
    repeat' split
    all_goals first | exact post_emit_then _ | exact whole_numericAddress _ _ _

theorem whole_parseBound (which address port : Str) (v6 : Bool) :
    Post c (parseBound env which address port v6) (fun o => ∀ r, o = some r → WholeOne r) := by
  rw [parseBound]
  refine post_bind (R := All (WholeOne)) ?_ ?_
  · rw [ignoreDuplicates]
    refine post_bind (whole_parseAddressPort _ _ v6) fun l hl => ?_
    cases l with
    | nil => exact post_pure c (all_nil _)
    | cons r l =>
      refine post_bind (R := All (WholeOne)) (post_lift c fun l' h' => ?_) fun l' h' => ?_
      · exact fun x hx => hl x (List.mem_cons_of_mem _ (dropDuplicates_mem h' x hx))
      · refine post_pure c ?_
        intro x hx
        rcases List.mem_cons.1 hx with hx | hx
        · rw [hx]; exact hl r (List.mem_cons_self ..)
        · exact h' x hx
  · intro l hl
    match l, hl with
    | [], _ => exact post_pure c fun r h => by cases h
    | [r], hl => exact post_pure c fun x h => by cases h; exact hl r (List.mem_cons_self ..)
    | _ :: _ :: _, _ => exact post_bind (post_emit c _) fun _ _ => post_pure c fun r h => by cases h

theorem whole_parseAddressRangePort (addresses port : Str) (v6 : Bool) :
    Post c (parseAddressRangePort env addresses port [] v6) (All (Whole)) := by
  rw [parseAddressRangePort]
  refine post_config ?_
  cases hs : (if c.flags .addressRange then splitFirst '-' addresses else none) with
  | none => exact post_mono (whole_parseAddressPort _ _ v6) fun l hl r hr => whole_of_one (hl r hr)
  | some x =>
    obtain ⟨frm, dst⟩ := x
    cases frm with
    | nil =>
      cases dst with
      | nil => exact post_emit_then _
      | cons y dst =>
        refine post_bind (whole_parseBound _ _ _ v6) fun o ho => ?_
        cases o with
        | none => exact post_pure c (all_nil _)
        | some r => exact post_pure c (all_single (whole_swap (whole_of_one (ho r rfl))))
    | cons y frm =>
      cases dst with
      | nil =>
        refine post_bind (whole_parseBound _ _ _ v6) fun o ho => ?_
        cases o with
        | none => exact post_pure c (all_nil _)
        | some r => exact post_pure c (all_single (whole_of_one (ho r rfl)))
      | cons z dst =>
        refine post_bind (whole_parseBound _ _ _ v6) fun o ho => ?_
        cases o with
        | none => exact post_pure c (all_nil _)
        | some r =>
          refine post_bind (whole_parseBound _ _ _ v6) fun o ho' => ?_
          cases o with
          | none => exact post_pure c (all_nil _)
          | some t =>
            have hb : Whole (r.setTo t.swapFromTo.hi) := ⟨(ho r rfl).2.2.1, (ho' t rfl).2.2.1⟩
            dsimp only
            split
            · exact post_pure c (all_single hb)
            · exact post_pure c (all_nil _)

theorem whole_parseAddress4 (s : Str) : Post c (parseAddress4 env s []) (All (Whole)) := by
  rw [parseAddress4]
  refine post_config ?_
  split
  · exact whole_parseAddressRangePort _ _ _
  · split
    · exact whole_parseAddressRangePort _ _ _
    · exact post_emit_then _

theorem whole_parseAddress6 (s : Str) (n : Nat) : Post c (parseAddress6 env s n []) (All (Whole)) := by
  rw [parseAddress6]
  refine post_config ?_
  repeat' split
  all_goals first | exact whole_parseAddressRangePort _ _ _ | exact post_emit_then _ | exact post_throw c _ _

theorem whole_parseAddress (s mask : Str) :
    Post c (parseAddress env s mask []) (fun x => All (Whole) x.2) := by
  have h4 : Post c (parseAddress4 env s [] >>= fun l => (Pure.pure (true, l) : PM (Bool × List Range)))
      (fun x => All (Whole) x.2) :=
    post_bind (whole_parseAddress4 s) fun l hl => post_pure c hl
  have h6 : Post c (parseAddress6 env s (s.count ':') [] >>= fun l => (Pure.pure (false, l) : PM (Bool × List Range)))
        (fun x => All (Whole) x.2) :=
    post_bind (whole_parseAddress6 s _) fun l hl => post_pure c hl
  rw [parseAddress]
  refine post_config ?_
  dsimp only
  repeat' (first | exact h4 | exact h6 | split)

theorem whole_parseCidr (hm : c.flags .mask = false) (s : Str) : Post c (parseCidr env s []) (All Whole) := by
  rw [parseCidr]
  refine post_config ?_
  dsimp only
  rw [if_neg (by rw [hm]; exact Bool.false_ne_true)]
  exact post_bind (whole_parseAddress _ _) fun x hx => post_pure c hx

theorem whole_seqEntries (hm : c.flags .mask = false) (es : List Str) : Post c (seqEntries env es) (All (Whole)) := by
  induction es with
  | nil => exact post_pure c (all_nil _)
  | cons e es ih =>
    rw [seqEntries]
    exact post_bind (whole_parseCidr hm e) fun l hl => post_bind ih fun l' hl' => post_pure c (all_append hl hl')

theorem whole_parseUnsorted (hm : c.flags .mask = false) (inp : Str) : Post c (parseUnsorted env inp) (All (Whole)) := by
  rw [parseUnsorted]
  refine post_config ?_
  split
  · rw [parseSingle]
    refine post_config ?_
    dsimp only
    split
    · exact post_bind (R := fun _ => True) (post_lift c fun _ _ => trivial) fun e _ => whole_parseCidr hm e
    · exact whole_parseCidr hm _
  · intro p hp
    rw [parseList_eq, hp]
    exact (post_prepend (all_nil _) (whole_seqEntries hm _)) p hp

theorem withMaskCount_whole {n : Int} {a b : Addr} (hn : n = 128) (h : Range.withMaskCount n a = .ok b) : b.getMaskSize = 128 := by
  subst hn
  obtain ⟨b', h1, _, h2⟩ := withMaskCount_ok (a := a) (n := 128) (by unfold MaskCountAccepted; split <;> omega)
  rw [h] at h1
  cases h1
  exact h2

theorem whole_union {r s u : Range} (hr : Whole r) (hs : Whole s) (h : r.unionIfPossible s = .ok u) : Whole u := by
  rw [Range.unionIfPossible] at h
  by_cases h0 : (!r.isDefined && !s.isDefined) = true
  · rw [if_pos h0] at h; cases h; exact ⟨default_whole, default_whole⟩
  rw [if_neg h0] at h
  dsimp only at h
  generalize hb : (Addr.le r.fromOrTo s.toOrFrom && Addr.ge r.toOrFrom s.fromOrTo
    || Addr.ge r.toOrFrom s.fromOrTo && Addr.le r.fromOrTo s.toOrFrom
    || r.fromOrTo.isPrevious s.toOrFrom || r.toOrFrom.isNext s.fromOrTo) = b at h
  cases b with
  | false => rw [if_neg (by decide)] at h; cases h; exact ⟨default_whole, default_whole⟩
  | true =>
    rw [if_pos rfl] at h
    generalize (if Addr.lt r.fromOrTo s.fromOrTo = true then r.fromOrTo else s.fromOrTo) = x at h
    generalize (if Addr.gt r.toOrFrom s.toOrFrom = true then r.toOrFrom else s.toOrFrom) = y at h
    cases h1 : Range.withMaskCount (min r.lo.getMaskSize s.lo.getMaskSize) x with
    | throw e => rw [h1] at h; cases h
    | ub w => rw [h1] at h; cases h
    | ok lo =>
      rw [h1] at h
      cases h2 : Range.withMaskCount (min r.hi.getMaskSize s.hi.getMaskSize) y with
      | throw e => rw [h2] at h; cases h
      | ub w => rw [h2] at h; cases h
      | ok hi =>
        rw [h2] at h
        simp only [Res.bind_ok] at h
        have hlo := withMaskCount_whole (by rw [hr.1, hs.1]; rfl) h1
        have hhi := withMaskCount_whole (by rw [hr.2, hs.2]; rfl) h2
        split at h
        · cases h; exact ⟨hlo, hhi⟩
        · cases h; exact ⟨hlo, default_whole⟩

theorem whole_mergeLoop (cur : Range) (l : List Range) (hc : Whole cur) (hl : ∀ r ∈ l, Whole r) {l' : List Range}
    (h : mergeLoop cur l = .ok l') : ∀ r ∈ l', Whole r := by
  induction l generalizing cur l' with
  | nil =>
    cases h
    intro r hr
    rw [List.mem_singleton] at hr
    exact hr ▸ hc
  | cons next l ih =>
    have hn := hl next (List.mem_cons_self ..)
    have hl' : ∀ r ∈ l, Whole r := fun r hr => hl r (List.mem_cons_of_mem _ hr)
    rw [mergeLoop] at h
    cases hu : cur.unionIfPossible next with
    | throw e => rw [hu] at h; cases h
    | ub w => rw [hu] at h; cases h
    | ok u =>
      rw [hu] at h
      simp only [Res.bind_ok] at h
      split at h
      · exact ih u (whole_union hc hn hu) hl' h
      · cases h2 : mergeLoop next l with
        | throw e => rw [h2] at h; cases h
        | ub w => rw [h2] at h; cases h
        | ok l2 =>
          rw [h2] at h
          cases h
          intro r hr
          rcases List.mem_cons.1 hr with hr | hr
          · exact hr ▸ hc
          · exact ih next hn hl' h2 r hr

theorem whole_sortResult {s : BitVec 64} {l l' : List Range} (hl : ∀ r ∈ l, Whole r) (h : sortResult s l = .ok l') :
    ∀ r ∈ l', Whole r := by
  rw [sortResult_eq] at h
  have hl1 : ∀ l1, (if s &&& (SORT_FULL ||| SORT_MERGE) ≠ 0 then stableSort Range.lt l else .ok l) = .ok l1 →
      ∀ r ∈ l1, Whole r := by
    intro l1 h1 r hr
    split at h1
    · exact hl r (mem_stableSort h1 hr)
    · cases h1; exact hl r hr
  generalize (if s &&& (SORT_FULL ||| SORT_MERGE) ≠ 0 then stableSort Range.lt l else .ok l) = x at h hl1
  cases x with
  | throw e => cases h
  | ub w => cases h
  | ok l1 =>
    have hl1 := hl1 l1 rfl
    simp only [Res.bind_ok] at h
    cases h2 : mergeStep s l1 with
    | throw e => rw [h2] at h; cases h
    | ub w => rw [h2] at h; cases h
    | ok l2 =>
      rw [h2] at h
      simp only [Res.bind_ok] at h
      have hl2 : ∀ r ∈ l2, Whole r := by
        rw [mergeStep] at h2
        split at h2
        · cases l1 with
          | nil => cases h2; exact fun r hr => (nomatch hr)
          | cons a l1 =>
            exact whole_mergeLoop a l1 (hl1 a (List.mem_cons_self ..)) (fun r hr => hl1 r (List.mem_cons_of_mem _ hr)) h2
        · cases h2; exact hl1
      intro r hr
      apply hl2
      rw [familyStep] at h
      split at h
      · exact mem_stableSort h hr
      · split at h
        · exact mem_stableSort h hr
        · cases h; exact hr

theorem whole_parse {p : Parser} (hm : p.config.flags .mask = false) {inp : Str} {l : List Range} (h : (parse env inp p).2 = .ok l) :
    ∀ r ∈ l, Whole r := by
  rw [parse_eq, PM.bind_def] at h
  have hpost := (whole_parseUnsorted (env := env) (c := p.config) hm inp p rfl).2
  rcases hx : parseUnsorted env inp p with ⟨q, x⟩
  rw [hx] at h hpost
  cases x with
  | throw e => cases h
  | ub w => cases h
  | ok l0 => exact whole_sortResult (hpost l0 rfl) h

end Verif.Parser
