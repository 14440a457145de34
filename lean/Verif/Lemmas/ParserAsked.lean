import Verif.Lemmas.ParserSays
import Verif.Lemmas.ParserSame
import Verif.SpecAsked

/-!
# Lemmas about the parser: the questions put to the name service
-/

namespace Verif.Parser

open Spec

section
variable {env1 env2 : ParseEnv} {c : Config} {inp : Str}

theorem asked_parseAddressPort (hq : AlikeOn env1 env2 (MayAsk c inp)) {address port : Str} (result : List Range) (v6 : Bool)
    (hi : address <:+: inp) (hp : port ≠ [] → ':' :: port <:+: inp) :
    Same c (parseAddressPort env1 address port result v6) (parseAddressPort env2 address port result v6) := by
  rw [parseAddressPort, parseAddressPort]
  refine same_config ?_
  dsimp only
  split
  · exact same_refl _ _
  rename_i hport
  split
  · exact same_refl _ _
  rename_i haddr
  have hg : AddressText c inp (if address = [] then
          if v6 = true then (if c.defaultAddress6 = [] then "::".toList else c.defaultAddress6)
          else (if c.defaultAddress4 = [] then "0.0.0.0".toList else c.defaultAddress4)
        else address) := by
    by_cases h : address = []
    · rw [if_pos h]
      refine .inr ⟨?_, ?_⟩
      · cases hr : c.flags .requiredAddress with
        | true => rw [hr, h] at haddr; exact absurd rfl haddr
        | false => rfl
      · cases v6
        · exact .inl (if_neg Bool.false_ne_true)
        · exact .inr (if_pos rfl)
    · rw [if_neg h]
      exact .inl ⟨h, hi⟩
  have hpt : PortText c inp (if (!decide (port ≠ []) && decide (c.defaultPort ≠ -1)) = true then intStr c.defaultPort else port)
      (decide (port ≠ [])) := by
    by_cases h : port = []
    · rw [h] at hport ⊢
      refine .inr ⟨rfl, ?_, ?_⟩
      · cases hr : c.flags .requiredPort with
        | true => rw [hr] at hport; exact absurd rfl hport
        | false => rfl
      · by_cases hd : c.defaultPort = -1
        · rw [if_pos hd, if_neg]
          rw [hd]; decide
        · rw [if_neg hd, if_pos]
          rw [Bool.and_eq_true]
          exact ⟨rfl, decide_eq_true hd⟩
    · refine .inl ⟨decide_eq_true h, ?_⟩
      rw [if_neg]
      · exact ⟨h, hp h⟩
      · rw [decide_eq_true h]; exact Bool.false_ne_true
  revert hg hpt
  generalize (if address = [] then
          if v6 = true then (if c.defaultAddress6 = [] then "::".toList else c.defaultAddress6)
          else (if c.defaultAddress4 = [] then "0.0.0.0".toList else c.defaultAddress4)
        else address) = t
  generalize (if (!decide (port ≠ []) && decide (c.defaultPort ≠ -1)) = true then intStr c.defaultPort else port) = q
  intro hg hpt
  cases hf : c.flags .addressLookup with
  | true =>
    rw [if_pos rfl, if_pos rfl, lookupAddress, lookupAddress]
    refine same_config ?_
    have := hq.answers (cstr t) (if q = [] then ['0'] else cstr q) false (hintProtocol c.protocol)
      (by
        rw [MayAsk, if_neg Bool.false_ne_true]
        exact ⟨hf, ⟨t, hg, rfl⟩, ⟨q, _, hpt, rfl⟩, rfl⟩)
    rw [this, hq.gaiStrerror, hq.strerror]
    exact same_refl _ _
  | false =>
    rw [if_neg Bool.false_ne_true, if_neg Bool.false_ne_true]
    exact same_noLookupAddress hq.convert _ _ _ _

theorem asked_parseBound (hq : AlikeOn env1 env2 (MayAsk c inp)) {address port : Str} (w : Str) (v6 : Bool)
    (hi : address <:+: inp) (hp : port ≠ [] → ':' :: port <:+: inp) :
    Same c (parseBound env1 w address port v6) (parseBound env2 w address port v6) := by
  unfold parseBound
  refine same_bind (logging_ignoreDuplicates _ _ _ _ _ _) ?_ fun _ => same_refl _ _
  unfold ignoreDuplicates
  exact same_bind (logging_parseAddressPort _ _ _ _ _ _) (asked_parseAddressPort hq _ _ hi hp) fun _ => same_refl _ _

theorem asked_parseAddressRangePort (hq : AlikeOn env1 env2 (MayAsk c inp)) {addresses port : Str} (result : List Range) (v6 : Bool)
    (hi : addresses <:+: inp) (hp : port ≠ [] → ':' :: port <:+: inp) :
    Same c (parseAddressRangePort env1 addresses port result v6) (parseAddressRangePort env2 addresses port result v6) := by
  rw [parseAddressRangePort, parseAddressRangePort]
  refine same_config ?_
  cases hs : (if c.flags .addressRange then splitFirst '-' addresses else none) with
  | none => exact asked_parseAddressPort hq _ v6 hi hp
  | some x =>
    obtain ⟨frm, til⟩ := x
    have hf : c.flags .addressRange = true := by
      cases h : c.flags .addressRange with
      | true => rfl
      | false => rw [h, if_neg Bool.false_ne_true] at hs; cases hs
    rw [if_pos hf] at hs
    have hx := splitFirst_infix hs
    have hx1 := hx.1.trans hi
    have hx2 := hx.2.trans hi
    cases frm with
    | nil =>
      cases til with
      | nil => exact same_refl _ _
      | cons y til => exact same_bind (logging_parseBound _ _ _ _ _ _) (asked_parseBound hq _ v6 hx2 hp) fun _ => same_refl _ _
    | cons y frm =>
      cases til with
      | nil => exact same_bind (logging_parseBound _ _ _ _ _ _) (asked_parseBound hq _ v6 hx1 hp) fun _ => same_refl _ _
      | cons z til =>
        refine same_bind (logging_parseBound _ _ _ _ _ _) (asked_parseBound hq _ v6 hx1 hp) fun o => ?_
        cases o with
        | none => exact same_refl _ _
        | some r => exact same_bind (logging_parseBound _ _ _ _ _ _) (asked_parseBound hq _ v6 hx2 hp) fun _ => same_refl _ _

theorem asked_parseAddress4 (hq : AlikeOn env1 env2 (MayAsk c inp)) {s : Str} (result : List Range) (hi : s <:+: inp) :
    Same c (parseAddress4 env1 s result) (parseAddress4 env2 s result) := by
  rw [parseAddress4, parseAddress4]
  refine same_config ?_
  cases hs : splitFirst ':' s with
  | none => exact asked_parseAddressRangePort hq _ _ hi (fun h => absurd rfl h)
  | some x =>
    dsimp only
    split
    · exact asked_parseAddressRangePort hq _ _ ((splitFirst_infix hs).1.trans hi) fun _ => (splitFirst_port hs).trans hi
    · exact same_refl _ _

theorem asked_parseAddress6 (hq : AlikeOn env1 env2 (MayAsk c inp)) {s : Str} (n : Nat) (result : List Range) (hi : s <:+: inp) :
    Same c (parseAddress6 env1 s n result) (parseAddress6 env2 s n result) := by
  rw [parseAddress6, parseAddress6]
  refine same_config ?_
  split
  · rename_i hh
    obtain ⟨s', rfl⟩ : ∃ s', s = '[' :: s' := by
      cases s with
      | nil => cases hh
      | cons x s => cases hh; exact ⟨s, rfl⟩
    have hd : s' <:+: inp := List.IsInfix.trans ⟨['['], [], by simp⟩ hi
    rw [List.drop_one, List.tail_cons]
    cases hs : splitFirst ']' s' with
    | none => exact same_refl _ _
    | some x =>
      obtain ⟨a, b⟩ := x
      have ha := (splitFirst_infix hs).1.trans hd
      cases b with
      | nil => exact asked_parseAddressRangePort hq _ _ ha (fun h => absurd rfl h)
      | cons y b =>
        dsimp only
        split
        · exact same_refl _ _
        · rename_i hy
          have hy := Decidable.not_not.1 hy
          split
          · exact same_refl _ _
          · refine asked_parseAddressRangePort hq _ _ ha fun _ => ?_
            rw [← hy]
            exact (splitFirst_infix hs).2.trans hd
  · split
    · cases hs : splitFirst ':' s with
      | none => exact same_refl _ _
      | some x =>
        exact asked_parseAddressRangePort hq _ _ ((splitFirst_infix hs).1.trans hi) fun _ => (splitFirst_port hs).trans hi
    · exact asked_parseAddressRangePort hq _ _ hi (fun h => absurd rfl h)

theorem asked_parseAddress (hq : AlikeOn env1 env2 (MayAsk c inp)) {s : Str} (mask : Str) (result : List Range) (hi : s <:+: inp) :
    Same c (parseAddress env1 s mask result) (parseAddress env2 s mask result) := by
  have h4 : Same c (do return (true, ← parseAddress4 env1 s result) : PM (Bool × List Range))
      (do return (true, ← parseAddress4 env2 s result)) :=
    same_bind (logging_parseAddress4 _ _ _ _) (asked_parseAddress4 hq _ hi) fun _ => same_refl _ _
  have h6 : Same c (do return (false, ← parseAddress6 env1 s (s.count ':') result) : PM (Bool × List Range))
      (do return (false, ← parseAddress6 env2 s (s.count ':') result)) :=
    same_bind (logging_parseAddress6 _ _ _ _ _) (asked_parseAddress6 hq _ _ hi) fun _ => same_refl _ _
  unfold parseAddress
  refine same_config ?_
  dsimp only
  repeat' (first | exact h4 | exact h6 | split)

theorem asked_addressMask (hq : AlikeOn env1 env2 (MayAsk c inp)) {mask : Str} (a : Addr) (v4 : Bool) (hm : MaskText c inp mask) :
    Same c (addressMask env1 mask a v4) (addressMask env2 mask a v4) := by
  rw [addressMask, addressMask]
  refine same_config ?_
  split
  · exact same_refl _ _
  rename_i hf
  have hf : c.flags .addressMask = true := by
    cases h : c.flags .addressMask with
    | true => rfl
    | false => rw [h] at hf; exact absurd rfl hf
  split
  · exact same_refl _ _
  split
  · exact same_refl _ _
  rename_i n2
  split
  · exact same_refl _ _
  rename_i n3
  have hans := hq.answers (cstr (if v4 = true then mask else (mask.drop 1).dropLast)) (Inet.decStr a.getPort) true
    (hintProtocol a.protocol) (by
      rw [MayAsk, if_pos rfl]
      refine ⟨hf, ⟨mask, _, hm, ?_, rfl⟩, ⟨a.getPort, ?_, decStr_dec _⟩, ?_⟩
      · cases v4 with
        | true => exact .inl (by rw [if_pos rfl])
        | false =>
          refine .inr ?_
          rw [if_neg Bool.false_ne_true]
          refine unbracket ?_ ?_
          · exact Decidable.not_not.1 fun h' => n2 (by rw [decide_eq_true h']; rfl)
          · exact Decidable.not_not.1 fun h' => n3 (by rw [decide_eq_true h']; rfl)
      · exact BitVec.isLt _
      · rw [hintProtocol]
        split
        · rename_i h
          exact .inr h
        · exact .inl rfl)
  cases v4 with
  | true =>
    rw [if_pos rfl] at hans
    dsimp only
    rw [if_pos rfl, hans, hq.gaiStrerror, hq.strerror]
    exact same_refl _ _
  | false =>
    rw [if_neg Bool.false_ne_true] at hans
    dsimp only
    rw [if_neg Bool.false_ne_true, hans, hq.gaiStrerror, hq.strerror]
    exact same_refl _ _

theorem asked_parseMask (hq : AlikeOn env1 env2 (MayAsk c inp)) {mask : Str} (a : Addr) (v4 : Bool)
    (hm : mask ≠ [] → MaskText c inp mask) : Same c (parseMask env1 mask a v4) (parseMask env2 mask a v4) := by
  unfold parseMask
  split
  · exact same_refl _ _
  · rename_i h0
    split
    · exact same_refl _ _
    · exact same_refl _ _
    · exact same_bind (logging_addressMask _ _ _ _ _) (asked_addressMask hq _ _ (hm h0)) fun _ => same_refl _ _

theorem asked_maskLoop (hq : AlikeOn env1 env2 (MayAsk c inp)) {mask : Str} (v4 : Bool) (l : List Range) (hf : c.flags .mask = true)
    (hm : mask ≠ [] → '/' :: mask <:+: inp) : Same c (maskLoop env1 mask v4 l) (maskLoop env2 mask v4 l) := by
  induction l with
  | nil => exact same_refl _ _
  | cons x l ih =>
    rw [maskLoop, maskLoop]
    refine same_config (same_bind (logging_parseMask _ _ _ _ _) (asked_parseMask hq _ _ ?_) fun _ =>
      same_bind (logging_maskLoop _ _ _ _ _) ih fun _ => same_refl _ _)
    intro h0
    refine ⟨hf, h0, ?_⟩
    rw [chooseMask] at h0 ⊢
    split
    · rename_i h
      exact .inl (hm h)
    · rename_i h
      rw [if_neg h] at h0
      split
      · exact .inr (.inl rfl)
      · rename_i h'
        rw [if_neg h'] at h0
        split
        · exact .inr (.inr rfl)
        · rename_i h''
          rw [if_neg h''] at h0
          exact absurd rfl h0

theorem asked_parseCidr {s : Str} (hq : AlikeOn env1 env2 (MayAsk c s)) (result : List Range) :
    Same c (parseCidr env1 s result) (parseCidr env2 s result) := by
  have ht := trimString_infix s
  intro p hp
  cases h : c.flags .mask with
  | false =>
    rw [parseCidr_nomask _ _ _ _ (by rw [hp]; exact h), parseCidr_nomask _ _ _ _ (by rw [hp]; exact h),
      asked_parseAddress hq _ _ ht p hp]
  | true =>
    have ha : ((splitFirst '/' (trimString s)).getD (trimString s, [])).1 <:+: s
        ∧ (((splitFirst '/' (trimString s)).getD (trimString s, [])).2 ≠ [] →
          '/' :: ((splitFirst '/' (trimString s)).getD (trimString s, [])).2 <:+: s) := by
      cases hs : splitFirst '/' (trimString s) with
      | none => exact ⟨ht, fun h => absurd rfl h⟩
      | some x => exact ⟨(splitFirst_infix hs).1.trans ht, fun _ => (splitFirst_port hs).trans ht⟩
    rw [parseCidr_mask _ _ _ _ (by rw [hp]; exact h), parseCidr_mask _ _ _ _ (by rw [hp]; exact h)]
    dsimp only
    rw [asked_parseAddress hq _ _ ha.1 p hp]
    obtain ⟨errs, r, hl⟩ := logging_parseAddress env2 c ((splitFirst '/' (trimString s)).getD (trimString s, [])).1
      ((splitFirst '/' (trimString s)).getD (trimString s, [])).2 []
    rw [hl p hp]
    cases r with
    | ok x =>
      dsimp only
      rw [asked_maskLoop hq _ _ h ha.2 _ (by simpa using hp)]
    | throw e => rfl
    | ub w => rfl

theorem asked_seqEntries (es : List Str) (hq : ∀ e ∈ es, AlikeOn env1 env2 (MayAsk c e)) :
    Same c (seqEntries env1 es) (seqEntries env2 es) := by
  induction es with
  | nil => exact same_refl _ _
  | cons e es ih =>
    rw [seqEntries, seqEntries]
    exact same_bind (logging_parseCidr _ _ _ _) (asked_parseCidr (hq e (List.mem_cons_self ..)) _) fun l =>
      same_bind (logging_seqEntries _ _ _) (ih fun x hx => hq x (List.mem_cons_of_mem _ hx)) fun l' => same_refl _ _

theorem asked_mono {s : Str} (hi : s <:+: inp) (hq : AlikeOn env1 env2 (MayAsk c inp)) : AlikeOn env1 env2 (MayAsk c s) := by
  refine ⟨hq.convert, hq.gaiStrerror, hq.strerror, fun node service numeric protocol h => hq.answers _ _ _ _ ?_⟩
  rw [MayAsk] at h ⊢
  split
  · rename_i hn
    rw [if_pos hn] at h
    obtain ⟨h1, ⟨m, t, ⟨h2, h3, h4⟩, h5⟩, h6⟩ := h
    exact ⟨h1, ⟨m, t, ⟨h2, h3, h4.imp_left fun h => h.trans hi⟩, h5⟩, h6⟩
  · rename_i hn
    rw [if_neg hn] at h
    obtain ⟨h1, ⟨t, h2, h3⟩, ⟨q, w, h4, h5⟩, h6⟩ := h
    exact ⟨h1, ⟨t, h2.imp_left fun h => ⟨h.1, h.2.trans hi⟩, h3⟩,
      ⟨q, w, h4.imp_left fun h => ⟨h.1, h.2.1, h.2.2.trans hi⟩, h5⟩, h6⟩

/-- A list: only about the entries. -/
theorem asked_list (hs : separators c ≠ []) (hq : ∀ e ∈ entriesOf c inp.length inp, AlikeOn env1 env2 (MayAsk c e)) :
    Same c (parse env1 inp) (parse env2 inp) := by
  unfold parse
  refine same_config (same_bind (logging_parseUnsorted _ _ _) ?_ fun _ => same_refl _ _)
  unfold parseUnsorted
  refine same_config ?_
  rw [if_neg hs, if_neg hs]
  intro p hp
  rw [parseList_eq, parseList_eq, hp]
  exact same_bind (logging_seqEntries _ _ _) (asked_seqEntries _ hq) (fun _ => same_refl _ _) p hp

theorem asked_parse (hq : AlikeOn env1 env2 (MayAsk c inp)) : Same c (parse env1 inp) (parse env2 inp) := by
  by_cases hs : separators c = []
  · unfold parse
    refine same_config (same_bind (logging_parseUnsorted _ _ _) ?_ fun _ => same_refl _ _)
    unfold parseUnsorted
    refine same_config ?_
    rw [if_pos hs, if_pos hs]
    unfold parseSingle
    refine same_config ?_
    dsimp only
    split
    · intro p hp
      rw [PM.bind_def, PM.bind_def]
      cases he : substr inp (singleStart inp) (subSize (singleEnd c inp) (singleStart inp)) with
      | ok e =>
        refine asked_parseCidr (asked_mono ?_ hq) _ _ hp
        rw [substr] at he
        split at he
        · cases he
        · cases he
          exact (List.take_prefix _ _).isInfix.trans (List.drop_suffix _ _).isInfix
      | throw e => rfl
      | ub w => rfl
    · exact asked_parseCidr hq _
  · exact asked_list hs fun e he => asked_mono (entriesOf_mem c _ _ e he).2.2.2 hq

end

end Verif.Parser
