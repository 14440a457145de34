import Verif.Lemmas.ParserMore
import Verif.Props.AllowMore
import Verif.Props.ListLanguage
import Verif.Props.LookupLanguage

/-!
# C124 with lookups: allowing more does not refuse nor change what was accepted
-/

namespace Verif

open Spec

namespace Parser

section
variable {c c' : Config}

/-- What holds of the entries holds of the text, when the characters of the text are of the kind `K`. -/
theorem unsorted_of_cidr {K : Char → Prop} (hsep : separators c' = separators c) (hcom : commentChars c' = commentChars c)
    (hf : c'.flags .multiAddressesNewlines = c.flags .multiAddressesNewlines) {env : ParseEnv}
    (hcidr : ∀ (s : Str) (r l : List Range), (∀ x ∈ s, K x) → Clean c (parseCidr env s r) l → Clean c' (parseCidr env s r) l) {inp : Str} {l : List Range}
    (hn : ∀ x ∈ inp, K x) (hc : Clean c (parseUnsorted env inp) l) : Clean c' (parseUnsorted env inp) l := by
  have hlist : ∀ (fuel : Nat) (rest : Str) (result l : List Range), (∀ x ∈ rest, K x) →
      Clean c (parseList env fuel rest result) l → Clean c' (parseList env fuel rest result) l := by
    intro fuel
    induction fuel with
    | zero => exact fun _ _ _ _ hc => clean_pure.2 (clean_pure.1 hc)
    | succ n ih =>
      intro rest result l hn hc
      have h1 : ∀ e, entryText c' e = entryText c e := fun e => by simp only [entryText, hcom]
      have h2 : ∀ e, skipLine c' e = skipLine c e := fun e => by simp only [skipLine, hcom, hf]
      have drop : ∀ (f : Char → Bool) (s : Str), (∀ x ∈ s, K x) → (∀ x ∈ s.dropWhile f, K x) := fun f s h x h' => h x ((List.dropWhile_suffix f).subset h')
      have take : ∀ (f : Char → Bool) (s : Str), (∀ x ∈ s, K x) → (∀ x ∈ s.takeWhile f, K x) := fun f s h x h' => h x ((List.takeWhile_prefix f).subset h')
      have hskip : ∀ s, (∀ x ∈ s, K x) → (∀ x ∈ (skipLine c s).drop 1, K x) := by
        intro s h x h'
        have h' := List.mem_of_mem_drop h'
        unfold skipLine at h'
        split at h'
        · exact drop _ _ h x h'
        · exact h x h'
      have hentry : ∀ s, (∀ x ∈ s, K x) → (∀ x ∈ entryText c s, K x) := by
        intro s h
        unfold entryText
        split
        · exact take _ _ h
        · exact h
      rw [parseList, clean_config] at hc ⊢
      dsimp only at hc ⊢
      rw [hsep, h1, h2]
      split at hc
      · rename_i h3
        rw [if_pos h3]
        exact clean_pure.2 (clean_pure.1 hc)
      · rename_i h3
        rw [if_neg h3]
        split at hc
        · rename_i h4
          rw [if_pos h4]
          obtain ⟨r, h5, h6⟩ := clean_bind (logging_parseEntry _ _ _ _) (fun _ => logging_parseList _ _ _ _ _) hc
          refine clean_join ?_ (ih _ _ _ (hskip _ (drop _ _ hn)) h6)
          rw [parseEntry] at h5 ⊢
          split at h5
          · rename_i h7
            rw [if_pos h7]
            exact hcidr _ _ _ (hentry _ (take _ _ hn)) h5
          · rename_i h7
            rw [if_neg h7]
            exact clean_pure.2 (clean_pure.1 h5)
        · rename_i h4
          rw [if_neg h4]
          exact ih _ _ _ (fun x h' => drop _ _ hn x (List.mem_of_mem_drop h')) hc
  rw [parseUnsorted, clean_config] at hc ⊢
  rw [hsep]
  split at hc
  · rename_i h1
    rw [if_pos h1]
    rw [parseSingle, clean_config] at hc ⊢
    have h2 : singleEnd c' inp = singleEnd c inp := by simp only [singleEnd, hcom]
    dsimp only at hc ⊢
    rw [h2]
    split at hc
    · rename_i h3
      rw [if_pos h3]
      obtain ⟨e, h4, h5⟩ := clean_bind (logging_lift _ _) (fun _ => logging_parseCidr _ _ _ _) hc
      refine clean_join (clean_lift.2 (clean_lift.1 h4)) (hcidr _ _ _ ?_ h5)
      have h4 := clean_lift.1 h4
      unfold substr at h4
      split at h4
      · cases h4
      · obtain rfl := Res.ok.inj h4
        exact fun x h' => hn x (List.mem_of_mem_drop (List.mem_of_mem_take h'))
    · rename_i h3
      rw [if_neg h3]
      exact hcidr _ _ _ hn hc
  · rename_i h1
    rw [if_neg h1]
    exact hlist _ _ _ _ hn hc
/-- The second configuration allows more than the first one, which looks names up and allows no masks. -/
structure MoreNames (c c' : Config) : Prop where
  lookup : c.flags .addressLookup = true
  lookup' : c'.flags .addressLookup = true
  noMask : c.flags .mask = false
  requiredPort : c'.flags .requiredPort = c.flags .requiredPort
  port : c.flags .port = true → c'.flags .port = true
  required : c.flags .requiredAddress = false → c'.flags .requiredAddress = false
  range : c.flags .addressRange = true → c'.flags .addressRange = true
  masks : c'.flags .mask = true → c'.defaultMask4 = [] ∧ c'.defaultMask6 = []
  address4 : c'.defaultAddress4 = c.defaultAddress4
  address6 : c'.defaultAddress6 = c.defaultAddress6
  protocol : c'.protocol = c.protocol
  defaultPort : c'.defaultPort = c.defaultPort
  sort : c'.sort = c.sort

/-- A parser with a configuration. -/
def ofConfig (c : Config) : Parser := { blank with config := c }

theorem clean_of {α : Type} {m : PM α} {a : α} (hl : Logging c m) (h : m (ofConfig c) = (ofConfig c, .ok a)) : Clean c m a := by
  obtain ⟨errs, r, hr⟩ := hl
  have h1 := (hr (ofConfig c) rfl).symm.trans h
  have h2 := congrArg (fun x => x.1.errorCount) h1
  simp only [emitAll, ofConfig] at h2
  have : errs = [] := List.length_eq_zero_iff.1 (by omega)
  subst this
  obtain rfl : r = .ok a := congrArg Prod.snd h1
  exact hr

theorem portsAllowed_more (h : MoreNames c c') (hp : PortsAllowed (ofConfig c)) : PortsAllowed (ofConfig c') := by
  rcases hp with hp | hp
  · exact .inl (h.port hp)
  · exact .inr (h.requiredPort.trans hp)

theorem entry_more {a b : Prop} (h : a → b) {t u q : Str} (he : Entry a t u q) : Entry b t u q := by
  cases he with
  | bare4 h1 => exact .bare4 h1
  | port4 h1 h2 h3 => exact .port4 h1 h2 (h h3)
  | bare6 h1 => exact .bare6 h1
  | bracket => exact .bracket
  | port6 h3 => exact .port6 (h h3)

theorem asks_more (h : MoreNames c c') {t u q : Str} (ha : Asks (ofConfig c) t u q) : Asks (ofConfig c') t u q := by
  have hp := portsAllowed_more h
  cases ha with
  | name h1 h2 h3 => exact .name h1 h2 h3
  | port h1 h2 h3 h4 h5 => exact .port h1 h2 h3 h4 (h5.imp_left hp)
  | six h1 h2 => exact .six h1 h2
  | bracket h1 h2 => exact .bracket h1 h2
  | bracketPort h1 h2 h3 => exact .bracketPort h1 h2 (hp h3)
  | default h1 h2 =>
    have e : defaultText (ofConfig c).config t = defaultText (ofConfig c').config t := by
      show defaultText c t = defaultText c' t
      rw [defaultText, defaultText, h.address4, h.address6]
    rw [e]
    refine .default (h.required h1) ?_
    rcases h2 with h2 | ⟨h2, h3, h4, h5, h6⟩
    · exact .inl (entry_more hp h2)
    · by_cases hp' : PortsAllowed (ofConfig c')
      · subst h2 h3
        exact .inl (.port4 (u := []) (q := []) (by simp) (by simp) hp')
      · exact .inr ⟨h2, h3, hp', h.address4.trans h5, fun e => h6 (h.address6.symm.trans e)⟩
  | defaultPort h1 h2 h3 h4 =>
    have := Asks.defaultPort (p := ofConfig c') (q := q) (h.required h1) h2 (h.address4.trans h3) (fun e => h4 (h.address6.symm.trans e))
    rw [show (ofConfig c').config.defaultAddress6 = (ofConfig c).config.defaultAddress6 from h.address6] at this
    exact this

/-- The loop over the answers does not depend on the configuration. -/
theorem lookup_more (h : MoreNames c c') {env : ParseEnv} {u q1 q2 : Str} {d : Bool} {l : List Range}
    (hq : (if q2 = [] then ['0'] else Verif.cstr q2) = if q1 = [] then ['0'] else Verif.cstr q1)
    (hc : lookupAddress env u q1 d [] (ofConfig c) = (ofConfig c, .ok l)) :
    lookupAddress env u q2 d [] (ofConfig c') = (ofConfig c', .ok l) := by
  rw [lookupAddress, PM.config_bind] at hc ⊢
  rw [hq, show (ofConfig c').config.protocol = (ofConfig c).config.protocol from h.protocol]
  cases ho : env.getaddrinfo (cstr u) (if q1 = [] then ['0'] else cstr q1) false (hintProtocol (ofConfig c).config.protocol) with
  | error r e =>
    rw [ho] at hc
    exfalso
    have : (1 : Int) = 0 := congrArg (fun x => x.1.errorCount) hc
    exact absurd this (by decide)
  | list l' =>
    rw [ho] at hc
    have hc : addrinfoLoop u d l' true [] (ofConfig c) = (ofConfig c, .ok l) := hc
    show addrinfoLoop u d l' true [] (ofConfig c') = (ofConfig c', .ok l)
    obtain ⟨h1, h2, h3, _, h5⟩ := rel_addrinfoLoop (c := c) (c' := c') u d l' true [] (ofConfig c) (ofConfig c') rfl rfl rfl rfl
    rw [hc] at h1 h2 h3
    refine Prod.ext ?_ h1.symm
    have e : ∀ x y : Parser, x.config = y.config → x.error = y.error → x.errorCount = y.errorCount → x = y := by
      rintro ⟨_, _, _⟩ ⟨_, _, _⟩ h1 h2 h3
      cases h1; cases h2; cases h3; rfl
    exact e _ _ h5 h2.symm h3.symm

theorem address_more (h : MoreNames c c') {env : ParseEnv} {t : Str} {v4 : Bool} {l : List Range}
    (hk : ∀ x ∈ t, c'.flags .addressRange = true → x ≠ '-') (hc : Clean c (parseAddress env t [] []) (v4, l)) :
    ∃ v4', Clean c' (parseAddress env t [] []) (v4', l) := by
  have hc := hc (ofConfig c) rfl
  rw [emitAll_nil] at hc
  have hr' : (ofConfig c').config.flags .addressRange = false ∨ '-' ∉ t := by
    cases hr : c'.flags .addressRange with
    | false => exact .inl hr
    | true => exact .inr fun hm => hk _ hm hr rfl
  have hr : (ofConfig c).config.flags .addressRange = false ∨ '-' ∉ t := by
    rcases hr' with hr' | hr'
    · refine .inl ?_
      cases hr : c.flags .addressRange with
      | false => exact hr
      | true => exact absurd (h.range hr) (by rw [show c'.flags .addressRange = false from hr']; decide)
    · exact .inr hr'
  by_cases ha : ∃ u q, Asks (ofConfig c) t u q
  · obtain ⟨u, q, ha⟩ := ha
    obtain ⟨hu, a4, a6, h1⟩ := asks_reads (env := env) hr ha
    have hq : (ofConfig c).config.flags .requiredPort = false ∨ q ≠ [] := by
      by_cases hq : q = []
      · subst hq
        cases hp : c.flags .requiredPort with
        | false => exact .inl hp
        | true =>
          exfalso
          obtain ⟨msg, h2⟩ := parseAddressPort_required (env := env) (p := ofConfig c) hp u a6
          rw [h1, PM.bind_def, h2] at hc
          have : (1 : Int) = 0 := congrArg (fun x => x.1.errorCount) hc
          exact absurd this (by decide)
      · exact .inr hq
    obtain ⟨q1, h2, h3⟩ := parseAddressPort_lookup (env := env) (p := ofConfig c) h.lookup hu hq a6
    obtain ⟨hu', b4, b6, g1⟩ := asks_reads (env := env) hr' (asks_more h ha)
    obtain ⟨q2, g2, g3⟩ := parseAddressPort_lookup (env := env) (p := ofConfig c') h.lookup' hu
      (hq.imp_left fun e => h.requiredPort.trans e) b6
    have hs : serviceAsked (ofConfig c') q = serviceAsked (ofConfig c) q := by
      unfold serviceAsked
      rw [show (ofConfig c').config.defaultPort = (ofConfig c).config.defaultPort from h.defaultPort]
    rw [h1, PM.bind_def, h2] at hc
    have hok : lookupAddress env u q1 (decide (q ≠ [])) [] (ofConfig c) = (ofConfig c, .ok l) := by
      rcases hx : lookupAddress env u q1 (decide (q ≠ [])) [] (ofConfig c) with ⟨p1, r1⟩
      rw [hx] at hc
      cases r1 with
      | ok x =>
        have e1 := congrArg Prod.fst hc
        have e2 := Res.ok.inj (congrArg Prod.snd hc)
        have e3 : x = l := congrArg Prod.snd e2
        rw [e3]
        exact Prod.ext e1 rfl
      | throw e => cases congrArg Prod.snd hc
      | ub w => cases congrArg Prod.snd hc
    refine ⟨b4, clean_of (logging_parseAddress env c' t [] []) ?_⟩
    rw [g1, PM.bind_def, g2, lookup_more h ((g3.trans hs).trans h3.symm) hok]
    rfl
  · exfalso
    obtain ⟨_, msg, h1⟩ := no_question_refuses (env := env) ha
    rw [h1] at hc
    have : (1 : Int) = 0 := congrArg (fun x => x.1.errorCount) hc
    exact absurd this (by decide)

theorem cidr_more (h : MoreNames c c') {env : ParseEnv} (s : Str) (r l : List Range)
    (hk : ∀ x ∈ s, (c'.flags .addressRange = true → x ≠ '-') ∧ (c'.flags .mask = true → x ≠ '/'))
    (hc : Clean c (parseCidr env s r) l) : Clean c' (parseCidr env s r) l := by
  obtain ⟨v4, h1⟩ := (clean_parseCidr_nomask h.noMask).1 hc
  rw [append_parseAddress] at h1
  obtain ⟨x, h2, h3⟩ := clean_bind (logging_parseAddress _ _ _ _ _) (fun _ => logging_pure _ _) h1
  have h3 := clean_pure.1 h3
  obtain ⟨a4, x⟩ := x
  obtain ⟨v4', h4⟩ := address_more h (fun y hy => (hk y (trimString_sub hy)).1) h2
  cases hm' : c'.flags .mask with
  | false =>
    refine (clean_parseCidr_nomask hm').2 ⟨v4', ?_⟩
    rw [append_parseAddress]
    exact clean_join h4 (clean_pure.2 (congrArg (Prod.mk v4') (congrArg Prod.snd h3 : r ++ x = l)))
  | true =>
    obtain ⟨hd4, hd6⟩ := h.masks hm'
    have hslash : '/' ∉ trimString s := fun hm => (hk _ (trimString_sub hm)).2 hm' rfl
    refine (clean_parseCidr_mask hm').2 ?_
    rw [splitFirst_none.2 hslash]
    refine ⟨v4', x, x, h4, ?_, (congrArg Prod.snd h3).symm⟩
    have hno : ∀ v4, chooseMask c' [] v4 = [] := by
      intro v4
      rw [chooseMask, if_neg (not_not_intro rfl), hd4, hd6]
      cases v4 <;> rfl
    have loop : ∀ m : List Range, Clean c' (maskLoop env [] v4' m) m := by
     intro m
     induction m with
     | nil => exact clean_pure.2 rfl
     | cons r m ih =>
      rw [maskLoop, clean_config, hno]
      exact clean_join (a := r.lo) (fun p _ => by rw [emitAll_nil]; rfl) (clean_join ih (clean_pure.2 rfl))
    exact loop x

end
end Parser

/-! ### C124 with lookups -/

/-- C124, with lookups, for parsers of lists and of single entries which do not allow masks: when a text is accepted, the parser which
allows ports, ranges of addresses, masks, masks written as addresses or addresses left out besides accepts it as the same ranges, when
there is no hyphen in it if ranges are allowed, and neither a slash nor a default mask if masks are. Missing: the texts with a
hyphen, for which it is false (`C124_claim_fails`), and the parsers which allow both lookups and masks from the start. -/
theorem C124_lookups_partial (env : ParseEnv) (p : Parser) (inp : Str) (l : List Range) (ops : List (ParseEnv × ParserOp))
    (hl : (Parser.getAllowInt 5 p).2 = .ok true) (hm0 : (Parser.getAllowInt 9 p).2 = .ok false)
    (hr : (Parser.getAllowInt 6 (ParserOp.runAll ops p)).2 = .ok true → '-' ∉ inp)
    (hm : (∃ o ∈ ops, o.2 = .setAllow 9 true) → '/' ∉ inp ∧ p.config.defaultMask4 = [] ∧ p.config.defaultMask6 = [])
    (h : ∀ o ∈ ops, Loosens o.2) (ha : AcceptsAs env p inp l) : AcceptsAs env (ParserOp.runAll ops p) inp l := by
  have hl : p.config.flags .addressLookup = true := Res.ok.inj hl
  have hm0 : p.config.flags .mask = false := Res.ok.inj hm0
  have key : ∀ (ops : List (ParseEnv × ParserOp)) (q : Parser), (∀ o ∈ ops, Loosens o.2) →
      ((∃ o ∈ ops, o.2 = .setAllow 9 true) → '/' ∉ inp ∧ p.config.defaultMask4 = [] ∧ p.config.defaultMask6 = []) →
      Parser.MoreNames p.config q.config → StillSame p q → (q.config.flags .mask = true → '/' ∉ inp) →
      q.config.defaultMask4 = p.config.defaultMask4 ∧ q.config.defaultMask6 = p.config.defaultMask6 →
      Parser.MoreNames p.config (ParserOp.runAll ops q).config ∧ StillSame p (ParserOp.runAll ops q)
        ∧ ((ParserOp.runAll ops q).config.flags .mask = true → '/' ∉ inp) := by
    intro ops
    induction ops with
    | nil => exact fun q _ _ h1 h2 h3 _ => ⟨h1, h2, h3⟩
    | cons o ops ih =>
      intro q h hm h1 h2 h3 h4
      obtain ⟨env, op⟩ := o
      have hm' := fun (h : ∃ o ∈ ops, o.2 = .setAllow 9 true) => hm (by obtain ⟨x, hx, e⟩ := h; exact ⟨x, List.mem_cons_of_mem _ hx, e⟩)
      have hop := h _ List.mem_cons_self
      dsimp only at hop
      have h' : ∀ o ∈ ops, Loosens o.2 := fun x hx => h x (List.mem_cons_of_mem _ hx)
      cases hop with
      | port => exact ih _ h' hm' { h1 with port := fun _ => rfl } ⟨h2.sep, h2.com, h2.newlines⟩ h3 h4
      | range => exact ih _ h' hm' { h1 with range := fun _ => rfl } ⟨h2.sep, h2.com, h2.newlines⟩ h3 h4
      | addressMask => exact ih _ h' hm' { h1 with } ⟨h2.sep, h2.com, h2.newlines⟩ h3 h4
      | optional => exact ih _ h' hm' { h1 with required := fun _ => rfl } ⟨h2.sep, h2.com, h2.newlines⟩ h3 h4
      | mask =>
        obtain ⟨m1, m2, m3⟩ := hm ⟨_, List.mem_cons_self, rfl⟩
        exact ih _ h' hm' { h1 with masks := fun _ => ⟨h4.1.trans m2, h4.2.trans m3⟩ } ⟨h2.sep, h2.com, h2.newlines⟩ (fun _ => m1) h4
  have h0 : Parser.MoreNames p.config p.config :=
    ⟨hl, hl, hm0, rfl, id, id, id, fun h => absurd h (by rw [hm0]; decide), rfl, rfl, rfl, rfl, rfl⟩
  obtain ⟨h1, h2, h3⟩ := key ops p h hm h0 ⟨rfl, rfl, rfl⟩ (fun h => absurd h (by rw [hm0]; decide)) ⟨rfl, rfl⟩
  rw [accepts_clean] at ha ⊢
  rw [Parser.parse, Parser.clean_config] at ha ⊢
  obtain ⟨x, g1, g2⟩ := Parser.clean_bind (Parser.logging_parseUnsorted _ _ _) (fun _ => Parser.logging_lift _ _) ha
  rw [h1.sort]
  refine Parser.clean_join (Parser.unsorted_of_cidr h2.sep h2.com h2.newlines (Parser.cidr_more h1) ?_ g1)
    (Parser.clean_lift.2 (Parser.clean_lift.1 g2))
  intro y hy
  exact ⟨fun e1 e2 => hr (congrArg Res.ok e1) (e2 ▸ hy), fun e1 e2 => h3 e1 (e2 ▸ hy)⟩

/-- The calls which allow ports and addresses left out, and no ranges. -/
def portCalls : List (ParseEnv × ParserOp) := [(nameEnv, .setAllow 7 true), (nameEnv, .setAllow 1 false)]

theorem portCalls_loosen : ∀ o ∈ portCalls, Loosens o.2 := by
  intro o ho
  rcases List.mem_cons.1 ho with rfl | ho
  · constructor
  rcases List.mem_cons.1 ho with rfl | ho
  · constructor
  · cases ho

/-- The name "web-1" is still accepted as the same address once ports and addresses left out are allowed. -/
example : ∃ l, l.length = 1 ∧ AcceptsAs nameEnv Parser.create "web-1".toList l
    ∧ AcceptsAs nameEnv (ParserOp.runAll portCalls Parser.create) "web-1".toList l := by
  have h : (match (Parser.parse nameEnv "web-1".toList Parser.create).2 with
      | .ok l => decide (l.length = 1) && decide ((Parser.parse nameEnv "web-1".toList Parser.create).1.getErrorCount = Parser.create.getErrorCount)
      | _ => false) = true := by decide +kernel
  revert h
  rcases h1 : (Parser.parse nameEnv "web-1".toList Parser.create).2 with l | e | w
  · intro h
    have h := Bool.and_eq_true_iff.1 h
    have ha : AcceptsAs nameEnv Parser.create "web-1".toList l := ⟨h1, of_decide_eq_true h.2⟩
    refine ⟨l, of_decide_eq_true h.1, ha, C124_lookups_partial nameEnv Parser.create _ l portCalls rfl rfl (fun h => by cases h) ?_
      portCalls_loosen ha⟩
    exact fun _ => ⟨by decide, rfl, rfl⟩
  · intro h; cases h
  · intro h; cases h

end Verif
