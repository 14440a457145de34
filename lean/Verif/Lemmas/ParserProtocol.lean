import Verif.Props.ParserSource
import Verif.Props.ParserPort

/-!
# Lemmas about the parser: the protocol of the addresses returned
-/

namespace Verif.Parser

open Spec

/-- A range has a bound, and the protocols of its bounds have the property `Q`. -/
def Kept (Q : Int → Prop) (r : Range) : Prop :=
  (r.hasFrom = true ∨ r.hasTo = true) ∧ (r.hasFrom = true → Q r.lo.protocol) ∧ (r.hasTo = true → Q r.hi.protocol)

/-- A range of one address, whose protocol has the property `Q`. -/
def KeptOne (Q : Int → Prop) (r : Range) : Prop := r.hasFrom = true ∧ r.hasTo = false ∧ Q r.lo.protocol

section
variable {Q : Int → Prop}

theorem kept_of_one {r : Range} (h : KeptOne Q r) : Kept Q r :=
  ⟨.inl h.1, fun _ => h.2.2, fun h' => by rw [h.2.1] at h'; cases h'⟩

theorem kept_swap {r : Range} (h : Kept Q r) : Kept Q r.swapFromTo :=
  ⟨h.1.symm, h.2.2, h.2.1⟩

theorem makeRange_protocol {a : Res Addr} {hostname : Str} {protocol : Int} {d : Bool} {r : Range}
    (ha : ∀ b, a = .ok b → b.protocol = 6) (h : makeRange a hostname protocol d = .ok r) :
    KnownProtocol protocol ∧ r.hasFrom = true ∧ r.hasTo = false ∧ r.lo.protocol = (if protocol = -1 then 6 else protocol) := by
  obtain ⟨h1, h2, _⟩ := makeRange_ok h
  cases a with
  | throw e => cases h
  | ub w => cases h
  | ok b =>
    have hb := ha b rfl
    by_cases hk : KnownProtocol protocol
    · obtain ⟨r', h3, _, _, _, h4, _⟩ := makeRange_stands (hostname := hostname) (d := d) hb hk
      rw [h] at h3
      cases h3
      exact ⟨hk, h1, h2, h4⟩
    · exfalso
      have hp : protocol ≠ -1 := fun e => hk (by rw [e]; exact .inl rfl)
      rw [makeRange] at h
      simp only [Res.bind_ok] at h
      have h1 : onLocal (Addr.setHostname hostname) b = .ok { b with hostname := hostname } := rfl
      rw [h1] at h
      simp only [Res.bind_ok] at h
      rw [if_pos hp] at h
      have : onLocal (Addr.setProtocol protocol) { b with hostname := hostname } = .throw .invalidArgument := by
        simp only [onLocal, Addr.setProtocol]
        rw [if_neg]
        rintro (e | e | e)
        · exact hk (.inr (.inl e))
        · exact hk (.inr (.inr (.inl e)))
        · exact hk (.inr (.inr (.inr e)))
      rw [this] at h
      cases h

theorem ofIn_protocol {sa : SockaddrIn} {a : Addr} (h : Addr.ofIn sa = .ok a) : a.protocol = 6 := by
  unfold Addr.ofIn Addr.setIpv4 at h
  by_cases hf : sa.family ≠ AF_INET
  · rw [if_pos hf] at h; cases h
  · rw [if_neg hf] at h; cases h; rfl

theorem ofIn6_protocol {sa : SockaddrIn6} {a : Addr} (h : Addr.ofIn6 sa = .ok a) : a.protocol = 6 := by
  unfold Addr.ofIn6 Addr.setIpv6 at h
  by_cases hf : sa.family ≠ AF_INET6
  · rw [if_pos hf] at h; cases h
  · rw [if_neg hf] at h; cases h; rfl

/-- The protocol of the answer, where it is one which an address may have, has the property `Q`. -/
def Good (Q : Int → Prop) : AddrInfo → Prop
  | .inet _ n _ => KnownProtocol n → Q (if n = -1 then 6 else n)
  | .inet6 _ n _ => KnownProtocol n → Q (if n = -1 then 6 else n)
  | .other _ => True

/-- The protocols of the addresses a parser with this configuration makes have the property `Q`. -/
def Makes (env : ParseEnv) (c : Config) (Q : Int → Prop) : Prop :=
  (c.flags .addressLookup = false → KnownProtocol c.protocol → Q (if c.protocol = -1 then 6 else c.protocol))
    ∧ (c.flags .addressLookup = true → ∀ node service l,
        env.getaddrinfo node service false (hintProtocol c.protocol) = .list l → ∀ x ∈ l, Good Q x)

variable {env : ParseEnv} {c : Config}

theorem kept_addrinfoLoop (t : Str) (d : Bool) (l : List AddrInfo) (hl : ∀ x ∈ l, Good Q x) (first : Bool)
    (result : List Range) (hr : All (KeptOne Q) result) : Post c (addrinfoLoop t d l first result) (All (KeptOne Q)) := by
  induction l generalizing first result with
  | nil => exact post_pure c hr
  | cons x l ih =>
    have ih := ih fun y hy => hl y (List.mem_cons_of_mem _ hy)
    have hx := hl x (List.mem_cons_self ..)
    cases x with
    | inet len protocol sa =>
      rw [addrinfoLoop]
      split
      · exact post_bind (post_emit c _) fun _ _ => ih _ _ hr
      · refine post_bind (R := KeptOne Q) (post_lift c fun r h => ?_) fun r h => ih _ _ (all_append hr (all_single h))
        obtain ⟨h0, h1, h2, h3⟩ := makeRange_protocol (fun _ => ofIn_protocol) h
        exact ⟨h1, h2, by rw [h3]; exact hx h0⟩
    | inet6 len protocol sa =>
      rw [addrinfoLoop]
      split
      · exact post_bind (post_emit c _) fun _ _ => ih _ _ hr
      · refine post_bind (R := KeptOne Q) (post_lift c fun r h => ?_) fun r h => ih _ _ (all_append hr (all_single h))
        obtain ⟨h0, h1, h2, h3⟩ := makeRange_protocol (fun _ => ofIn6_protocol) h
        exact ⟨h1, h2, by rw [h3]; exact hx h0⟩
    | other family =>
      rw [addrinfoLoop]
      split
      · exact post_bind (post_emit c _) fun _ _ => ih _ _ hr
      · exact ih _ _ hr

theorem kept_numericAddress (hQ : KnownProtocol c.protocol → Q (if c.protocol = -1 then 6 else c.protocol)) (t : Str) (port : Int) (d : Bool) :
    Post c (numericAddress t port d []) (All (KeptOne Q)) := by
  rw [numericAddress]
  refine post_config ?_
  dsimp only
  split
  · refine post_bind (R := KeptOne Q) (post_lift c fun r h => ?_) fun r h => post_pure c (all_single h)
    obtain ⟨h0, h1, h2, h3⟩ := makeRange_protocol (fun _ => ofIn_protocol) h
    exact ⟨h1, h2, by rw [h3]; exact hQ h0⟩
  · split
    · refine post_bind (R := KeptOne Q) (post_lift c fun r h => ?_) fun r h => post_pure c (all_single h)
      obtain ⟨h0, h1, h2, h3⟩ := makeRange_protocol (fun _ => ofIn6_protocol) h
      exact ⟨h1, h2, by rw [h3]; exact hQ h0⟩
    · exact post_emit_then _

theorem kept_parseAddressPort (hm : Makes env c Q) (address port : Str) (v6 : Bool) :
    Post c (parseAddressPort env address port [] v6) (All (KeptOne Q)) := by
  rw [parseAddressPort]
  refine post_config ?_
  dsimp only
  split
  · exact post_emit_then _
  split
  · exact post_emit_then _
  cases hf : c.flags .addressLookup with
  | true =>
    rw [if_pos rfl, lookupAddress]
    refine post_config ?_
    split
    · exact post_emit_then _
    · rename_i l hl
      exact kept_addrinfoLoop _ _ l (hm.2 hf _ _ _ hl) _ _ (all_nil _)
  | false =>
    rw [if_neg Bool.false_ne_true, noLookupAddress]
    refine post_getAllow (post_getAllow ?_)
    repeat' split
    all_goals first | exact post_emit_then _ | exact kept_numericAddress (hm.1 hf) _ _ _

theorem kept_parseBound (hm : Makes env c Q) (which address port : Str) (v6 : Bool) :
    Post c (parseBound env which address port v6) (fun o => ∀ r, o = some r → KeptOne Q r) := by
  rw [parseBound]
  refine post_bind (R := All (KeptOne Q)) ?_ ?_
  · rw [ignoreDuplicates]
    refine post_bind (kept_parseAddressPort hm _ _ v6) fun l hl => ?_
    cases l with
    | nil => exact post_pure c (all_nil _)
    | cons r l =>
      refine post_bind (R := All (KeptOne Q)) (post_lift c fun l' h' => ?_) fun l' h' => ?_
      · exact fun x hx => hl x (List.mem_cons_of_mem _ (dropDuplicates_mem h' x hx))
      · refine post_pure c ?_
        intro x hx
        rcases List.mem_cons.1 hx with hx | hx
        · rw [hx]; exact hl r (List.mem_cons_self ..)
        · exact h' x hx
  · intro l hl
    match l, hl with
    | [], _ => exact post_pure c fun r h => by cases h
    | [r], hl => exact post_pure c fun x h => by cases h; exact hl r (List.mem_cons_self ..)
    | _ :: _ :: _, _ => exact post_bind (post_emit c _) fun _ _ => post_pure c fun r h => by cases h

theorem kept_parseAddressRangePort (hm : Makes env c Q) (addresses port : Str) (v6 : Bool) :
    Post c (parseAddressRangePort env addresses port [] v6) (All (Kept Q)) := by
  rw [parseAddressRangePort]
  refine post_config ?_
  cases hs : (if c.flags .addressRange then splitFirst '-' addresses else none) with
  | none => exact post_mono (kept_parseAddressPort hm _ _ v6) fun l hl r hr => kept_of_one (hl r hr)
  | some x =>
    obtain ⟨frm, dst⟩ := x
    cases frm with
    | nil =>
      cases dst with
      | nil => exact post_emit_then _
      | cons y dst =>
        refine post_bind (kept_parseBound hm _ _ _ v6) fun o ho => ?_
        cases o with
        | none => exact post_pure c (all_nil _)
        | some r => exact post_pure c (all_single (kept_swap (kept_of_one (ho r rfl))))
    | cons y frm =>
      cases dst with
      | nil =>
        refine post_bind (kept_parseBound hm _ _ _ v6) fun o ho => ?_
        cases o with
        | none => exact post_pure c (all_nil _)
        | some r => exact post_pure c (all_single (kept_of_one (ho r rfl)))
      | cons z dst =>
        refine post_bind (kept_parseBound hm _ _ _ v6) fun o ho => ?_
        cases o with
        | none => exact post_pure c (all_nil _)
        | some r =>
          refine post_bind (kept_parseBound hm _ _ _ v6) fun o ho' => ?_
          cases o with
          | none => exact post_pure c (all_nil _)
          | some t =>
            have hb : Kept Q (r.setTo t.swapFromTo.hi) := ⟨Or.inr rfl, fun _ => (ho r rfl).2.2, fun _ => (ho' t rfl).2.2⟩
            dsimp only
            split
            · exact post_pure c (all_single hb)
            · exact post_pure c (all_nil _)

theorem kept_parseAddress4 (hm : Makes env c Q) (s : Str) : Post c (parseAddress4 env s []) (All (Kept Q)) := by
  rw [parseAddress4]
  refine post_config ?_
  split
  · exact kept_parseAddressRangePort hm _ _ _
  · split
    · exact kept_parseAddressRangePort hm _ _ _
    · exact post_emit_then _

theorem kept_parseAddress6 (hm : Makes env c Q) (s : Str) (n : Nat) : Post c (parseAddress6 env s n []) (All (Kept Q)) := by
  rw [parseAddress6]
  refine post_config ?_
  repeat' split
  all_goals first | exact kept_parseAddressRangePort hm _ _ _ | exact post_emit_then _ | exact post_throw c _ _

theorem kept_parseAddress (hm : Makes env c Q) (s mask : Str) :
    Post c (parseAddress env s mask []) (fun x => All (Kept Q) x.2) := by
  have h4 : Post c (parseAddress4 env s [] >>= fun l => (Pure.pure (true, l) : PM (Bool × List Range)))
      (fun x => All (Kept Q) x.2) :=
    post_bind (kept_parseAddress4 hm s) fun l hl => post_pure c hl
  have h6 : Post c (parseAddress6 env s (s.count ':') [] >>= fun l => (Pure.pure (false, l) : PM (Bool × List Range)))
        (fun x => All (Kept Q) x.2) :=
    post_bind (kept_parseAddress6 hm s _) fun l hl => post_pure c hl
  rw [parseAddress]
  refine post_config ?_
  dsimp only
  repeat' (first | exact h4 | exact h6 | split)

theorem kept_setMask (bits : Bytes16) (a : Addr) :
    Post c (PM.lift (onLocal (Addr.setMask bits) a)) (fun b => b.protocol = a.protocol) :=
  post_lift c fun b h => by cases h; rfl

theorem kept_parseMask (env : ParseEnv) (mask : Str) (a : Addr) (v4 : Bool) :
    Post c (parseMask env mask a v4) (fun b => b.protocol = a.protocol) := by
  have hs : Post c (Pure.pure a : PM Addr) (fun b => b.protocol = a.protocol) := post_pure c rfl
  rw [parseMask]
  split
  · exact hs
  · split
    · exact post_bind (post_emit c _) fun _ _ => hs
    · split
      · exact post_bind (post_emit c _) fun _ _ => hs
      · split
        · exact post_bind (post_emit c _) fun _ _ => hs
        · exact post_bind (R := fun _ => True) (post_lift c fun _ _ => trivial) fun _ _ => kept_setMask _ a
    · refine post_bind (R := fun _ => True) ?_ fun o _ => ?_
      · obtain ⟨errs, r, hl⟩ := logging_addressMask env c mask a v4
        intro p hp
        rw [hl p hp]
        exact ⟨by rw [emitAll_config]; exact hp, fun _ _ => trivial⟩
      · cases o with
        | none => exact hs
        | some bits => exact kept_setMask _ a

theorem kept_maskLoop (env : ParseEnv) (mask : Str) (v4 : Bool) (l : List Range) (hl : All (Kept Q) l) :
    Post c (maskLoop env mask v4 l) (All (Kept Q)) := by
  induction l with
  | nil => exact post_pure c (all_nil _)
  | cons x l ih =>
    rw [maskLoop]
    refine post_config (post_bind (kept_parseMask env _ _ _) fun a ha => ?_)
    refine post_bind (ih fun r hr => hl r (List.mem_cons_of_mem _ hr)) fun l' hl' => post_pure c ?_
    have hx := hl x (List.mem_cons_self ..)
    refine fun r hr => ?_
    rcases List.mem_cons.1 hr with hr | hr
    · rw [hr]
      exact ⟨hx.1, fun h => by show Q a.protocol; rw [ha]; exact hx.2.1 h, hx.2.2⟩
    · exact hl' r hr

theorem kept_parseCidr (hm : Makes env c Q) (s : Str) : Post c (parseCidr env s []) (All (Kept Q)) := by
  rw [parseCidr]
  refine post_config ?_
  dsimp only
  split
  · refine post_errorCountNow fun n => ?_
    refine post_bind (kept_parseAddress hm _ _) fun x hx => ?_
    refine post_bind (kept_maskLoop env _ _ _ hx) fun l hl => ?_
    refine post_errorCountNow fun m => ?_
    split
    · exact post_pure c (all_append (all_nil _) hl)
    · exact post_pure c (all_nil _)
  · exact post_bind (kept_parseAddress hm _ _) fun x hx => post_pure c hx

theorem kept_seqEntries (hm : Makes env c Q) (es : List Str) : Post c (seqEntries env es) (All (Kept Q)) := by
  induction es with
  | nil => exact post_pure c (all_nil _)
  | cons e es ih =>
    rw [seqEntries]
    exact post_bind (kept_parseCidr hm e) fun l hl => post_bind ih fun l' hl' => post_pure c (all_append hl hl')

theorem kept_parseUnsorted (hm : Makes env c Q) (inp : Str) : Post c (parseUnsorted env inp) (All (Kept Q)) := by
  rw [parseUnsorted]
  refine post_config ?_
  split
  · rw [parseSingle]
    refine post_config ?_
    dsimp only
    split
    · exact post_bind (R := fun _ => True) (post_lift c fun _ _ => trivial) fun e _ => kept_parseCidr hm e
    · exact kept_parseCidr hm _
  · intro p hp
    rw [parseList_eq, hp]
    exact (post_prepend (all_nil _) (kept_seqEntries hm _)) p hp

theorem kept_fromOrTo {r : Range} (h : Kept Q r) : Q r.fromOrTo.protocol := by
  rw [Range.fromOrTo]
  split
  · exact h.2.1 (by assumption)
  · exact h.2.2 (h.1.resolve_left (by assumption))

theorem kept_toOrFrom {r : Range} (h : Kept Q r) : Q r.toOrFrom.protocol := by
  rw [Range.toOrFrom]
  split
  · exact h.2.2 (by assumption)
  · exact h.2.1 (h.1.resolve_right (by assumption))

theorem withMaskCount_protocol {n : Int} {a b : Addr} (h : Range.withMaskCount n a = .ok b) : b.protocol = a.protocol := by
  rw [Range.withMaskCount, Addr.setMaskCount] at h
  generalize (if a.isIpv4 = true then (96 : Int) else 0) = m at h
  by_cases hc : n < m ∨ n > 128
  · rw [if_pos hc] at h; cases h
  · rw [if_neg hc] at h; cases h; rfl

theorem kept_union {r s u : Range} (hr : Kept Q r) (hs : Kept Q s) (h : r.unionIfPossible s = .ok u)
    (hu : u.isDefined = true) : Kept Q u := by
  rw [Range.unionIfPossible] at h
  by_cases h0 : (!r.isDefined && !s.isDefined) = true
  · rw [if_pos h0] at h; cases h; cases hu
  rw [if_neg h0] at h
  dsimp only at h
  generalize hb : (Addr.le r.fromOrTo s.toOrFrom && Addr.ge r.toOrFrom s.fromOrTo
    || Addr.ge r.toOrFrom s.fromOrTo && Addr.le r.fromOrTo s.toOrFrom
    || r.fromOrTo.isPrevious s.toOrFrom || r.toOrFrom.isNext s.fromOrTo) = b at h
  cases b with
  | false => rw [if_neg (by decide)] at h; cases h; cases hu
  | true =>
    rw [if_pos rfl] at h
    have hlo : Q (if Addr.lt r.fromOrTo s.fromOrTo = true then r.fromOrTo else s.fromOrTo).protocol := by
      split
      · exact kept_fromOrTo hr
      · exact kept_fromOrTo hs
    have hhi : Q (if Addr.gt r.toOrFrom s.toOrFrom = true then r.toOrFrom else s.toOrFrom).protocol := by
      split
      · exact kept_toOrFrom hr
      · exact kept_toOrFrom hs
    generalize (if Addr.lt r.fromOrTo s.fromOrTo = true then r.fromOrTo else s.fromOrTo) = x at h hlo
    generalize (if Addr.gt r.toOrFrom s.toOrFrom = true then r.toOrFrom else s.toOrFrom) = y at h hhi
    cases h1 : Range.withMaskCount (min r.lo.getMaskSize s.lo.getMaskSize) x with
    | throw e => rw [h1] at h; cases h
    | ub w => rw [h1] at h; cases h
    | ok lo =>
      rw [h1] at h
      cases h2 : Range.withMaskCount (min r.hi.getMaskSize s.hi.getMaskSize) y with
      | throw e => rw [h2] at h; cases h
      | ub w => rw [h2] at h; cases h
      | ok hi =>
        rw [h2] at h
        simp only [Res.bind_ok] at h
        have hlo' : Q lo.protocol := by rw [withMaskCount_protocol h1]; exact hlo
        have hhi' : Q hi.protocol := by rw [withMaskCount_protocol h2]; exact hhi
        split at h
        · cases h; exact ⟨.inl rfl, fun _ => hlo', fun _ => hhi'⟩
        · cases h; exact ⟨.inl rfl, fun _ => hlo', fun h => (nomatch h)⟩

theorem kept_mergeLoop (cur : Range) (l : List Range) (hc : Kept Q cur) (hl : ∀ r ∈ l, Kept Q r) {l' : List Range}
    (h : mergeLoop cur l = .ok l') : ∀ r ∈ l', Kept Q r := by
  induction l generalizing cur l' with
  | nil =>
    cases h
    intro r hr
    rw [List.mem_singleton] at hr
    exact hr ▸ hc
  | cons next l ih =>
    have hn := hl next (List.mem_cons_self ..)
    have hl' : ∀ r ∈ l, Kept Q r := fun r hr => hl r (List.mem_cons_of_mem _ hr)
    rw [mergeLoop] at h
    cases hu : cur.unionIfPossible next with
    | throw e => rw [hu] at h; cases h
    | ub w => rw [hu] at h; cases h
    | ok u =>
      rw [hu] at h
      simp only [Res.bind_ok] at h
      split at h
      · rename_i hd
        rw [Bool.and_eq_true] at hd
        exact ih u (kept_union hc hn hu hd.1) hl' h
      · cases h2 : mergeLoop next l with
        | throw e => rw [h2] at h; cases h
        | ub w => rw [h2] at h; cases h
        | ok l2 =>
          rw [h2] at h
          cases h
          intro r hr
          rcases List.mem_cons.1 hr with hr | hr
          · exact hr ▸ hc
          · exact ih next hn hl' h2 r hr

theorem kept_sortResult {s : BitVec 64} {l l' : List Range} (hl : ∀ r ∈ l, Kept Q r) (h : sortResult s l = .ok l') :
    ∀ r ∈ l', Kept Q r := by
  rw [sortResult_eq] at h
  have hl1 : ∀ l1, (if s &&& (SORT_FULL ||| SORT_MERGE) ≠ 0 then stableSort Range.lt l else .ok l) = .ok l1 →
      ∀ r ∈ l1, Kept Q r := by
    intro l1 h1 r hr
    split at h1
    · exact hl r (mem_stableSort h1 hr)
    · cases h1; exact hl r hr
  generalize (if s &&& (SORT_FULL ||| SORT_MERGE) ≠ 0 then stableSort Range.lt l else .ok l) = x at h hl1
  cases x with
  | throw e => cases h
  | ub w => cases h
  | ok l1 =>
    have hl1 := hl1 l1 rfl
    simp only [Res.bind_ok] at h
    cases h2 : mergeStep s l1 with
    | throw e => rw [h2] at h; cases h
    | ub w => rw [h2] at h; cases h
    | ok l2 =>
      rw [h2] at h
      simp only [Res.bind_ok] at h
      have hl2 : ∀ r ∈ l2, Kept Q r := by
        rw [mergeStep] at h2
        split at h2
        · cases l1 with
          | nil => cases h2; exact fun r hr => (nomatch hr)
          | cons a l1 =>
            exact kept_mergeLoop a l1 (hl1 a (List.mem_cons_self ..)) (fun r hr => hl1 r (List.mem_cons_of_mem _ hr)) h2
        · cases h2; exact hl1
      intro r hr
      apply hl2
      rw [familyStep] at h
      split at h
      · exact mem_stableSort h hr
      · split at h
        · exact mem_stableSort h hr
        · cases h; exact hr

theorem kept_parse {p : Parser} (hm : Makes env p.config Q) {inp : Str} {l : List Range} (h : (parse env inp p).2 = .ok l) :
    ∀ r ∈ l, Kept Q r := by
  rw [parse_eq, PM.bind_def] at h
  have hpost := (kept_parseUnsorted (c := p.config) hm inp p rfl).2
  rcases hx : parseUnsorted env inp p with ⟨q, x⟩
  rw [hx] at h hpost
  cases x with
  | throw e => cases h
  | ub w => cases h
  | ok l0 => exact kept_sortResult (hpost l0 rfl) h

end

end Verif.Parser
