import Verif.Lemmas.ParserAsked

/-!
# Lemmas about the parser: what is read without an error with a name service which knows more names
-/

namespace Verif.Parser

open Spec

/-- With configuration `c`, when the first computation emits no error the second one does the same. -/
def StillDone {α : Type} (c : Config) (m1 m2 : PM α) : Prop :=
  Logging c m1 ∧ ∀ p : Parser, p.config = c → (m1 p).1.errorCount = p.errorCount → m1 p = m2 p

theorem still_refl {α : Type} {c : Config} {m : PM α} (h : Logging c m) : StillDone c m m := ⟨h, fun _ _ _ => rfl⟩

theorem still_bind {α β : Type} {c : Config} {m1 m2 : PM α} {f1 f2 : α → PM β} (h : StillDone c m1 m2)
    (hf : ∀ a, StillDone c (f1 a) (f2 a)) : StillDone c (m1 >>= f1) (m2 >>= f2) := by
  refine ⟨logging_bind h.1 fun a => (hf a).1, fun p hp hc => ?_⟩
  obtain ⟨⟨errs, r, hl⟩, hk⟩ := h
  have hk := hk p hp
  rw [hl p hp] at hk
  rw [PM.bind_def, hl p hp] at hc
  rw [PM.bind_def, PM.bind_def, hl p hp]
  cases r with
  | ok a =>
    have hp' : (emitAll errs p).config = c := hp
    obtain ⟨e2, r2, h2⟩ := (hf a).1
    have h2 := h2 _ hp'
    have hc' := hc
    dsimp only at hc
    rw [h2] at hc
    simp only [emitAll] at hc
    have h0 : errs.length = 0 := by omega
    rw [← hk (by simp [emitAll, h0])]
    refine (hf a).2 _ hp' ?_
    rw [h2]
    simp only [emitAll]
    omega
  | throw e => rw [← hk hc]
  | ub w => rw [← hk hc]

theorem still_config {β : Type} {c : Config} {f1 f2 : Config → PM β} (h : StillDone c (f1 c) (f2 c)) :
    StillDone c (PM.config >>= f1) (PM.config >>= f2) := by
  refine ⟨?_, fun p hp hc => ?_⟩
  · obtain ⟨e, r, hl⟩ := h.1
    exact ⟨e, r, fun p hp => by rw [PM.config_bind, hp]; exact hl p hp⟩
  · rw [PM.config_bind, hp] at hc
    rw [PM.config_bind, PM.config_bind, hp]
    exact h.2 p hp hc

/-- What emits an error need not be kept. -/
theorem still_emit {β : Type} {c : Config} {msg : Str} {f : Unit → PM β} {m : PM β} (hf : Logging c (f ())) :
    StillDone c (emitError msg >>= f) m := by
  refine ⟨logging_bind (logging_emit _ _) fun _ => hf, fun p hp hc => ?_⟩
  obtain ⟨e, r, hl⟩ := hf
  have h1 : (f () (emitAll [msg] p)).1.errorCount = p.errorCount := by
    rw [← hc, PM.bind_def, emitError_apply]
  have h2 := (congrArg (fun x => x.1.errorCount) (hl (emitAll [msg] p) hp)).symm.trans h1
  simp only [emitAll, List.length_cons, List.length_nil] at h2
  omega

section
variable {env1 env2 : ParseEnv} {c : Config} {inp : Str}

theorem known_parseAddressPort (hq : KnownBy env1 env2 (MayAsk c inp)) {address port : Str} (result : List Range) (v6 : Bool)
    (hi : address <:+: inp) (hp : port ≠ [] → ':' :: port <:+: inp) :
    StillDone c (parseAddressPort env1 address port result v6) (parseAddressPort env2 address port result v6) := by
  rw [parseAddressPort, parseAddressPort]
  refine still_config ?_
  dsimp only
  split
  · exact still_refl (by repeat' logging_step)
  rename_i hport
  split
  · exact still_refl (by repeat' logging_step)
  rename_i haddr
  have hg : AddressText c inp (if address = [] then
          if v6 = true then (if c.defaultAddress6 = [] then "::".toList else c.defaultAddress6)
          else (if c.defaultAddress4 = [] then "0.0.0.0".toList else c.defaultAddress4)
        else address) := by
    by_cases h : address = []
    · rw [if_pos h]
      refine .inr ⟨?_, ?_⟩
      · cases hr : c.flags .requiredAddress with
        | true => rw [hr, h] at haddr; exact absurd rfl haddr
        | false => rfl
      · cases v6
        · exact .inl (if_neg Bool.false_ne_true)
        · exact .inr (if_pos rfl)
    · rw [if_neg h]
      exact .inl ⟨h, hi⟩
  have hpt : PortText c inp (if (!decide (port ≠ []) && decide (c.defaultPort ≠ -1)) = true then intStr c.defaultPort else port)
      (decide (port ≠ [])) := by
    by_cases h : port = []
    · rw [h] at hport ⊢
      refine .inr ⟨rfl, ?_, ?_⟩
      · cases hr : c.flags .requiredPort with
        | true => rw [hr] at hport; exact absurd rfl hport
        | false => rfl
      · by_cases hd : c.defaultPort = -1
        · rw [if_pos hd, if_neg]
          rw [hd]; decide
        · rw [if_neg hd, if_pos]
          rw [Bool.and_eq_true]
          exact ⟨rfl, decide_eq_true hd⟩
    · refine .inl ⟨decide_eq_true h, ?_⟩
      rw [if_neg]
      · exact ⟨h, hp h⟩
      · rw [decide_eq_true h]; exact Bool.false_ne_true
  revert hg hpt
  generalize (if address = [] then
          if v6 = true then (if c.defaultAddress6 = [] then "::".toList else c.defaultAddress6)
          else (if c.defaultAddress4 = [] then "0.0.0.0".toList else c.defaultAddress4)
        else address) = t
  generalize (if (!decide (port ≠ []) && decide (c.defaultPort ≠ -1)) = true then intStr c.defaultPort else port) = q
  intro hg hpt
  cases hf : c.flags .addressLookup with
  | true =>
    rw [if_pos rfl, if_pos rfl, lookupAddress, lookupAddress]
    refine still_config ?_
    have := hq.answers (cstr t) (if q = [] then ['0'] else cstr q) false (hintProtocol c.protocol)
      (by
        rw [MayAsk, if_neg Bool.false_ne_true]
        exact ⟨hf, ⟨t, hg, rfl⟩, ⟨q, _, hpt, rfl⟩, rfl⟩)
    cases ha : env1.getaddrinfo (cstr t) (if q = [] then ['0'] else cstr q) false (hintProtocol c.protocol) with
    | error r e => exact still_emit (logging_pure _ _)
    | list l =>
      rw [this l ha]
      exact still_refl (logging_addrinfoLoop _ _ _ _ _ _)
  | false =>
    rw [if_neg Bool.false_ne_true, if_neg Bool.false_ne_true]
    exact ⟨logging_noLookupAddress _ _ _ _ _ _, fun p hp _ => same_noLookupAddress hq.convert _ _ _ _ p hp⟩

theorem known_parseBound (hq : KnownBy env1 env2 (MayAsk c inp)) {address port : Str} (w : Str) (v6 : Bool)
    (hi : address <:+: inp) (hp : port ≠ [] → ':' :: port <:+: inp) :
    StillDone c (parseBound env1 w address port v6) (parseBound env2 w address port v6) := by
  unfold parseBound
  refine still_bind ?_ fun _ => still_refl (by repeat' logging_step)
  unfold ignoreDuplicates
  exact still_bind (known_parseAddressPort hq _ _ hi hp) fun _ => still_refl (by repeat' logging_step)

theorem known_parseAddressRangePort (hq : KnownBy env1 env2 (MayAsk c inp)) {addresses port : Str} (result : List Range) (v6 : Bool)
    (hi : addresses <:+: inp) (hp : port ≠ [] → ':' :: port <:+: inp) :
    StillDone c (parseAddressRangePort env1 addresses port result v6) (parseAddressRangePort env2 addresses port result v6) := by
  rw [parseAddressRangePort, parseAddressRangePort]
  refine still_config ?_
  cases hs : (if c.flags .addressRange then splitFirst '-' addresses else none) with
  | none => exact known_parseAddressPort hq _ v6 hi hp
  | some x =>
    obtain ⟨frm, til⟩ := x
    have hf : c.flags .addressRange = true := by
      cases h : c.flags .addressRange with
      | true => rfl
      | false => rw [h, if_neg Bool.false_ne_true] at hs; cases hs
    rw [if_pos hf] at hs
    have hx := splitFirst_infix hs
    have hx1 := hx.1.trans hi
    have hx2 := hx.2.trans hi
    cases frm with
    | nil =>
      cases til with
      | nil => exact still_refl (by repeat' (first | logging_step | dsimp only))
      | cons y til => exact still_bind (known_parseBound hq _ v6 hx2 hp) fun _ => still_refl (by repeat' (first | logging_step | dsimp only))
    | cons y frm =>
      cases til with
      | nil => exact still_bind (known_parseBound hq _ v6 hx1 hp) fun _ => still_refl (by repeat' (first | logging_step | dsimp only))
      | cons z til =>
        refine still_bind (known_parseBound hq _ v6 hx1 hp) fun o => ?_
        cases o with
        | none => exact still_refl (by repeat' (first | logging_step | dsimp only))
        | some r => exact still_bind (known_parseBound hq _ v6 hx2 hp) fun _ => still_refl (by repeat' (first | logging_step | dsimp only))

theorem known_parseAddress4 (hq : KnownBy env1 env2 (MayAsk c inp)) {s : Str} (result : List Range) (hi : s <:+: inp) :
    StillDone c (parseAddress4 env1 s result) (parseAddress4 env2 s result) := by
  rw [parseAddress4, parseAddress4]
  refine still_config ?_
  cases hs : splitFirst ':' s with
  | none => exact known_parseAddressRangePort hq _ _ hi (fun h => absurd rfl h)
  | some x =>
    dsimp only
    split
    · exact known_parseAddressRangePort hq _ _ ((splitFirst_infix hs).1.trans hi) fun _ => (splitFirst_port hs).trans hi
    · exact still_refl (by repeat' logging_step)

theorem known_parseAddress6 (hq : KnownBy env1 env2 (MayAsk c inp)) {s : Str} (n : Nat) (result : List Range) (hi : s <:+: inp) :
    StillDone c (parseAddress6 env1 s n result) (parseAddress6 env2 s n result) := by
  rw [parseAddress6, parseAddress6]
  refine still_config ?_
  split
  · rename_i hh
    obtain ⟨s', rfl⟩ : ∃ s', s = '[' :: s' := by
      cases s with
      | nil => cases hh
      | cons x s => cases hh; exact ⟨s, rfl⟩
    have hd : s' <:+: inp := List.IsInfix.trans ⟨['['], [], by simp⟩ hi
    rw [List.drop_one, List.tail_cons]
    cases hs : splitFirst ']' s' with
    | none => exact still_refl (by repeat' logging_step)
    | some x =>
      obtain ⟨a, b⟩ := x
      have ha := (splitFirst_infix hs).1.trans hd
      cases b with
      | nil => exact known_parseAddressRangePort hq _ _ ha (fun h => absurd rfl h)
      | cons y b =>
        dsimp only
        split
        · exact still_refl (by repeat' logging_step)
        · rename_i hy
          have hy := Decidable.not_not.1 hy
          split
          · exact still_refl (by repeat' logging_step)
          · refine known_parseAddressRangePort hq _ _ ha fun _ => ?_
            rw [← hy]
            exact (splitFirst_infix hs).2.trans hd
  · split
    · cases hs : splitFirst ':' s with
      | none => exact still_refl (by repeat' logging_step)
      | some x =>
        exact known_parseAddressRangePort hq _ _ ((splitFirst_infix hs).1.trans hi) fun _ => (splitFirst_port hs).trans hi
    · exact known_parseAddressRangePort hq _ _ hi (fun h => absurd rfl h)

theorem known_parseAddress (hq : KnownBy env1 env2 (MayAsk c inp)) {s : Str} (mask : Str) (result : List Range) (hi : s <:+: inp) :
    StillDone c (parseAddress env1 s mask result) (parseAddress env2 s mask result) := by
  have h4 : StillDone c (do return (true, ← parseAddress4 env1 s result) : PM (Bool × List Range))
      (do return (true, ← parseAddress4 env2 s result)) :=
    still_bind (known_parseAddress4 hq _ hi) fun _ => still_refl (by repeat' logging_step)
  have h6 : StillDone c (do return (false, ← parseAddress6 env1 s (s.count ':') result) : PM (Bool × List Range))
      (do return (false, ← parseAddress6 env2 s (s.count ':') result)) :=
    still_bind (known_parseAddress6 hq _ _ hi) fun _ => still_refl (by repeat' logging_step)
  unfold parseAddress
  refine still_config ?_
  dsimp only
  repeat' (first | exact h4 | exact h6 | split)

theorem known_addressMask (hq : KnownBy env1 env2 (MayAsk c inp)) {mask : Str} (a : Addr) (v4 : Bool) (hm : MaskText c inp mask) :
    StillDone c (addressMask env1 mask a v4) (addressMask env2 mask a v4) := by
  rw [addressMask, addressMask]
  refine still_config ?_
  split
  · exact still_refl (by repeat' logging_step)
  rename_i hf
  have hf : c.flags .addressMask = true := by
    cases h : c.flags .addressMask with
    | true => rfl
    | false => rw [h] at hf; exact absurd rfl hf
  split
  · exact still_refl (by repeat' logging_step)
  split
  · exact still_refl (by repeat' logging_step)
  rename_i n2
  split
  · exact still_refl (by repeat' logging_step)
  rename_i n3
  have hans := hq.answers (cstr (if v4 = true then mask else (mask.drop 1).dropLast)) (Inet.decStr a.getPort) true
    (hintProtocol a.protocol) (by
      rw [MayAsk, if_pos rfl]
      refine ⟨hf, ⟨mask, _, hm, ?_, rfl⟩, ⟨a.getPort, ?_, decStr_dec _⟩, ?_⟩
      · cases v4 with
        | true => exact .inl (by rw [if_pos rfl])
        | false =>
          refine .inr ?_
          rw [if_neg Bool.false_ne_true]
          refine unbracket ?_ ?_
          · exact Decidable.not_not.1 fun h' => n2 (by rw [decide_eq_true h']; rfl)
          · exact Decidable.not_not.1 fun h' => n3 (by rw [decide_eq_true h']; rfl)
      · exact BitVec.isLt _
      · rw [hintProtocol]
        split
        · rename_i h
          exact .inr h
        · exact .inl rfl)
  cases v4 with
  | true =>
    rw [if_pos rfl] at hans
    dsimp only
    rw [if_pos rfl]
    by_cases h0 : (!true && decide (mask = [])) = true
    · rw [if_pos h0, if_pos h0]
      exact still_refl (logging_pure _ _)
    · rw [if_neg h0, if_neg h0]
      cases ha : env1.getaddrinfo (cstr mask) (Inet.decStr a.getPort) true (hintProtocol a.protocol) with
      | error r e => exact still_emit (logging_pure _ _)
      | list l =>
        rw [hans l ha]
        rcases l with _ | ⟨x, l⟩
        · exact still_refl (logging_lift _ _)
        · cases x <;> dsimp only <;> exact still_refl (by repeat' logging_step)
  | false =>
    rw [if_neg Bool.false_ne_true] at hans
    dsimp only
    rw [if_neg Bool.false_ne_true]
    by_cases h0 : (!false && decide ((mask.drop 1).dropLast = [])) = true
    · rw [if_pos h0, if_pos h0]
      exact still_refl (logging_pure _ _)
    · rw [if_neg h0, if_neg h0]
      cases ha : env1.getaddrinfo (cstr (mask.drop 1).dropLast) (Inet.decStr a.getPort) true (hintProtocol a.protocol) with
      | error r e => exact still_emit (logging_pure _ _)
      | list l =>
        rw [hans l ha]
        rcases l with _ | ⟨x, l⟩
        · exact still_refl (logging_lift _ _)
        · cases x <;> dsimp only <;> exact still_refl (by repeat' logging_step)

theorem known_parseMask (hq : KnownBy env1 env2 (MayAsk c inp)) {mask : Str} (a : Addr) (v4 : Bool)
    (hm : mask ≠ [] → MaskText c inp mask) : StillDone c (parseMask env1 mask a v4) (parseMask env2 mask a v4) := by
  unfold parseMask
  split
  · exact still_refl (by repeat' logging_step)
  · rename_i h0
    split
    · exact still_refl (by repeat' logging_step)
    · exact still_refl (by repeat' logging_step)
    · exact still_bind (known_addressMask hq _ _ (hm h0)) fun _ => still_refl (by repeat' logging_step)

theorem known_maskLoop (hq : KnownBy env1 env2 (MayAsk c inp)) {mask : Str} (v4 : Bool) (l : List Range) (hf : c.flags .mask = true)
    (hm : mask ≠ [] → '/' :: mask <:+: inp) : StillDone c (maskLoop env1 mask v4 l) (maskLoop env2 mask v4 l) := by
  induction l with
  | nil => exact still_refl (by repeat' logging_step)
  | cons x l ih =>
    rw [maskLoop, maskLoop]
    refine still_config (still_bind (known_parseMask hq _ _ ?_) fun _ =>
      still_bind ih fun _ => still_refl (by repeat' logging_step))
    intro h0
    refine ⟨hf, h0, ?_⟩
    rw [chooseMask] at h0 ⊢
    split
    · rename_i h
      exact .inl (hm h)
    · rename_i h
      rw [if_neg h] at h0
      split
      · exact .inr (.inl rfl)
      · rename_i h'
        rw [if_neg h'] at h0
        split
        · exact .inr (.inr rfl)
        · rename_i h''
          rw [if_neg h''] at h0
          exact absurd rfl h0

theorem known_parseCidr {s : Str} (hq : KnownBy env1 env2 (MayAsk c s)) (result : List Range) :
    StillDone c (parseCidr env1 s result) (parseCidr env2 s result) := by
  have ht := trimString_infix s
  refine ⟨logging_parseCidr _ _ _ _, fun p hp hc => ?_⟩
  cases h : c.flags .mask with
  | false =>
    have hk := known_parseAddress hq (s := trimString s) [] result ht
    rw [parseCidr_nomask _ _ _ _ (by rw [hp]; exact h)] at hc
    rw [parseCidr_nomask _ _ _ _ (by rw [hp]; exact h), parseCidr_nomask _ _ _ _ (by rw [hp]; exact h)]
    rw [← hk.2 p hp]
    rw [← hc]
    rcases parseAddress env1 (trimString s) [] result p with ⟨p1, r⟩
    cases r <;> rfl
  | true =>
    have ha : ((splitFirst '/' (trimString s)).getD (trimString s, [])).1 <:+: s
        ∧ (((splitFirst '/' (trimString s)).getD (trimString s, [])).2 ≠ [] →
          '/' :: ((splitFirst '/' (trimString s)).getD (trimString s, [])).2 <:+: s) := by
      cases hs : splitFirst '/' (trimString s) with
      | none => exact ⟨ht, fun h => absurd rfl h⟩
      | some x => exact ⟨(splitFirst_infix hs).1.trans ht, fun _ => (splitFirst_port hs).trans ht⟩
    rw [parseCidr_mask _ _ _ _ (by rw [hp]; exact h)] at hc
    rw [parseCidr_mask _ _ _ _ (by rw [hp]; exact h), parseCidr_mask _ _ _ _ (by rw [hp]; exact h)]
    revert ha hc
    generalize (splitFirst '/' (trimString s)).getD (trimString s, []) = am
    intro hc ha
    obtain ⟨⟨e1, r1, h1⟩, hk⟩ := known_parseAddress hq (s := am.1) am.2 [] ha.1
    have h1 := h1 p hp
    have hk := hk p hp
    dsimp only at hc ⊢
    rw [h1] at hk hc ⊢
    cases r1 with
    | throw e => rw [← hk hc]
    | ub w => rw [← hk hc]
    | ok x =>
      obtain ⟨v4, l⟩ := x
      have hp1 : (emitAll e1 p).config = c := hp
      obtain ⟨⟨e2, r2, h2⟩, hk2⟩ := known_maskLoop hq v4 l h ha.2
      have h2 := h2 _ hp1
      have hk2 := hk2 _ hp1
      dsimp only at hc
      rw [h2] at hc hk2
      have hcount : (emitAll e2 (emitAll e1 p)).errorCount = p.errorCount := by
        cases r2 <;> exact hc
      simp only [emitAll] at hcount
      rw [← hk (by simp only [emitAll]; omega)]
      dsimp only
      rw [h2, ← hk2 (by simp only [emitAll]; omega)]

theorem known_seqEntries (es : List Str) (hq : ∀ e ∈ es, KnownBy env1 env2 (MayAsk c e)) :
    StillDone c (seqEntries env1 es) (seqEntries env2 es) := by
  induction es with
  | nil => exact still_refl (by repeat' logging_step)
  | cons e es ih =>
    rw [seqEntries, seqEntries]
    exact still_bind (known_parseCidr (hq e (List.mem_cons_self ..)) _) fun l =>
      still_bind (ih fun x hx => hq x (List.mem_cons_of_mem _ hx)) fun l' => still_refl (by repeat' logging_step)

theorem known_mono {s : Str} (hi : s <:+: inp) (hq : KnownBy env1 env2 (MayAsk c inp)) : KnownBy env1 env2 (MayAsk c s) := by
  refine ⟨hq.convert, fun node service numeric protocol h => hq.answers _ _ _ _ ?_⟩
  rw [MayAsk] at h ⊢
  split
  · rename_i hn
    rw [if_pos hn] at h
    obtain ⟨h1, ⟨m, t, ⟨h2, h3, h4⟩, h5⟩, h6⟩ := h
    exact ⟨h1, ⟨m, t, ⟨h2, h3, h4.imp_left fun h => h.trans hi⟩, h5⟩, h6⟩
  · rename_i hn
    rw [if_neg hn] at h
    obtain ⟨h1, ⟨t, h2, h3⟩, ⟨q, w, h4, h5⟩, h6⟩ := h
    exact ⟨h1, ⟨t, h2.imp_left fun h => ⟨h.1, h.2.trans hi⟩, h3⟩,
      ⟨q, w, h4.imp_left fun h => ⟨h.1, h.2.1, h.2.2.trans hi⟩, h5⟩, h6⟩

/-- A list: only about the entries. -/
theorem known_list (hs : separators c ≠ []) (hq : ∀ e ∈ entriesOf c inp.length inp, KnownBy env1 env2 (MayAsk c e)) :
    StillDone c (parse env1 inp) (parse env2 inp) := by
  unfold parse
  refine still_config (still_bind ?_ fun _ => still_refl (by repeat' logging_step))
  unfold parseUnsorted
  refine still_config ?_
  rw [if_neg hs, if_neg hs]
  refine ⟨logging_parseList _ _ _ _ _, fun p hp hc => ?_⟩
  rw [parseList_eq, hp] at hc
  rw [parseList_eq, parseList_eq, hp]
  exact (still_bind (known_seqEntries _ hq) (fun _ => still_refl (logging_pure _ _))).2 p hp hc

theorem known_parse (hq : KnownBy env1 env2 (MayAsk c inp)) : StillDone c (parse env1 inp) (parse env2 inp) := by
  by_cases hs : separators c = []
  · unfold parse
    refine still_config (still_bind ?_ fun _ => still_refl (by repeat' logging_step))
    unfold parseUnsorted
    refine still_config ?_
    rw [if_pos hs, if_pos hs]
    unfold parseSingle
    refine still_config ?_
    dsimp only
    split
    · cases he : substr inp (singleStart inp) (subSize (singleEnd c inp) (singleStart inp)) with
      | ok e =>
        refine known_parseCidr (known_mono ?_ hq) _
        rw [substr] at he
        split at he
        · cases he
        · cases he
          exact (List.take_prefix _ _).isInfix.trans (List.drop_suffix _ _).isInfix
      | throw e => exact still_refl (logging_throw _ _)
      | ub w => exact ⟨⟨_, _, logs_lift _ (.ub w)⟩, fun _ _ _ => rfl⟩
    · exact known_parseCidr hq _
  · exact known_list hs fun e he => known_mono (entriesOf_mem c _ _ e he).2.2.2 hq

end

end Verif.Parser
