import Verif.SpecTools
import Verif.Props.StringToAddr
import Verif.Props.ParserTotal
import Verif.Lemmas.ParserPlain

/-!
# C72: what `validate-ip` answers
-/

namespace Verif

open Spec Tools

/-! ### The parser of the tool -/

theorem setDefaultAddress_run (a : Str) (p : Parser) :
    OutcomeIs p (Parser.setDefaultAddress a) (if a.head? = some '[' ∧ a.getLast? ≠ some ']' then (p, .throw .invalidArgument)
      else ({ p with config := { p.config with
        defaultAddress4 := (withDefault (p.config.defaultAddress4, p.config.defaultAddress6) a).1
        defaultAddress6 := (withDefault (p.config.defaultAddress4, p.config.defaultAddress6) a).2 } }, .ok ())) := by
  rw [Parser.setDefaultAddress]
  refine outcomeIs_config ?_
  split
  · rfl
  · rename_i rest
    by_cases h : ('[' :: rest).getLast? ≠ some ']'
    · rw [if_pos h, if_pos ⟨rfl, h⟩]; rfl
    · rw [if_neg h, if_neg (fun h' => h h'.2)]; rfl
  · rename_i h1 h2
    have hb : a.head? ≠ some '[' := by
      cases a with
      | nil => exact fun h => nomatch h
      | cons x l => intro h; cases h; exact h2 l rfl
    rw [if_neg (c := a.head? = some '[' ∧ a.getLast? ≠ some ']') (fun h => hb h.1), withDefault, if_neg h1, if_neg hb]
    by_cases hc : ':' ∈ a
    · rw [if_pos (List.contains_iff_mem.2 hc), if_pos hc]; rfl
    · rw [if_neg (fun h => hc (List.contains_iff_mem.1 h)), if_neg hc]; rfl

theorem defaultParts_iff (v : Str) (l : List Str) :
    DefaultParts v l ↔ l = (match Parser.splitFirst ',' v with | none => [v] | some (a, b) => [a, b]) := by
  cases h : Parser.splitFirst ',' v with
  | none =>
    have h' := Parser.splitFirst_none.1 h
    constructor
    · rintro (⟨_, h1⟩ | ⟨a, b, _, h2, _⟩)
      · exact h1
      · exact absurd (by rw [h2]; exact List.mem_append_right _ List.mem_cons_self) h'
    · exact fun h1 => .inl ⟨h', h1⟩
  | some x =>
    obtain ⟨a, b⟩ := x
    have h' := Parser.splitFirst_some h
    constructor
    · rintro (⟨h1, _⟩ | ⟨c, d, h1, h2, h3⟩)
      · exact absurd (by rw [h'.1]; exact List.mem_append_right _ List.mem_cons_self) h1
      · rw [h2, Parser.splitFirst_append h1] at h
        cases h
        exact h3
    · exact fun h1 => .inr ⟨a, b, h'.2, h'.1, h1⟩

theorem setAllows_run (o : ValidateOptions) (p : Parser) (hp : p.config.flags = Parser.create.config.flags) :
    ∃ fl, setAllows o p = ({ p with config := { p.config with flags := fl } }, .ok ()) ∧ ∀ f, fl f = toolAllows o f := by
  obtain ⟨⟨flags, sort, a4, a6, m4, m6, protocol, port⟩, error, n⟩ := p
  cases hp
  obtain ⟨_, _, address, _, _, list, mask, prt, _, _⟩ := o
  cases address <;> cases list <;> cases mask <;> cases prt <;>
    exact ⟨_, rfl, fun f => by cases f <;> rfl⟩

/-- The calls which may fail: with the exception `invalid_argument`, and nothing changes. -/
def Step (ok : Prop) (p q : Parser) (m : PM Unit) : Prop := (ok ∧ m p = (q, .ok ())) ∨ (¬ ok ∧ m p = (p, .throw .invalidArgument))

theorem step_default (a : Str) (p : Parser) : Step (a.head? = some '[' → a.getLast? = some ']') p
    { p with config := { p.config with
        defaultAddress4 := (withDefault (p.config.defaultAddress4, p.config.defaultAddress6) a).1
        defaultAddress6 := (withDefault (p.config.defaultAddress4, p.config.defaultAddress6) a).2 } } (Parser.setDefaultAddress a) := by
  have h := setDefaultAddress_run a p
  rw [OutcomeIs] at h
  by_cases hc : a.head? = some '[' ∧ a.getLast? ≠ some ']'
  · rw [if_pos hc] at h
    exact .inr ⟨fun h' => hc.2 (h' hc.1), h⟩
  · rw [if_neg hc] at h
    exact .inl ⟨fun h' => Classical.not_not.1 fun h'' => hc ⟨h', h''⟩, h⟩

theorem setDefaultAddresses_run (v : Str) (p : Parser) :
    ((∀ l, DefaultParts v l → ∀ a ∈ l, a.head? = some '[' → a.getLast? = some ']')
      ∧ ∃ l a4 a6, DefaultParts v l ∧ (a4, a6) = l.foldl withDefault (p.config.defaultAddress4, p.config.defaultAddress6)
        ∧ setDefaultAddresses v p = ({ p with config := { p.config with defaultAddress4 := a4, defaultAddress6 := a6 } }, .ok ()))
    ∨ (¬ (∀ l, DefaultParts v l → ∀ a ∈ l, a.head? = some '[' → a.getLast? = some ']')
      ∧ ∃ q, setDefaultAddresses v p = (q, .throw .invalidArgument)) := by
  rw [setDefaultAddresses]
  cases h : Parser.splitFirst ',' v with
  | none =>
    have hp : ∀ l, DefaultParts v l ↔ l = [v] := fun l => by rw [defaultParts_iff, h]
    rcases step_default v p with ⟨h1, h2⟩ | ⟨h1, h2⟩
    · refine .inl ⟨fun l hl a ha => ?_, [v], _, _, (hp _).2 rfl, rfl, h2⟩
      rw [(hp l).1 hl, List.mem_singleton] at ha
      rw [ha]; exact h1
    · exact .inr ⟨fun hall => h1 (hall _ ((hp _).2 rfl) v List.mem_cons_self), p, h2⟩
  | some x =>
    obtain ⟨a, b⟩ := x
    have hp : ∀ l, DefaultParts v l ↔ l = [a, b] := fun l => by rw [defaultParts_iff, h]
    dsimp only
    rcases step_default a p with ⟨h1, h2⟩ | ⟨h1, h2⟩
    · rw [PM.bind_of_ok h2]
      rcases step_default b _ with ⟨h3, h4⟩ | ⟨h3, h4⟩
      · refine .inl ⟨fun l hl c hc => ?_, [a, b], _, _, (hp _).2 rfl, rfl, h4⟩
        rw [(hp l).1 hl] at hc
        rcases List.mem_cons.1 hc with rfl | hc
        · exact h1
        · rw [List.mem_singleton.1 hc]; exact h3
      · exact .inr ⟨fun hall => h3 (hall _ ((hp _).2 rfl) b (List.mem_cons_of_mem _ List.mem_cons_self)), _, h4⟩
    · rw [PM.bind_of_throw h2]
      exact .inr ⟨fun hall => h1 (hall _ ((hp _).2 rfl) a List.mem_cons_self), _, rfl⟩

/-- The setup succeeds when the options make sense, and gives the parser described. -/
theorem configure_run (env : ParseEnv) (henv : DottedIsNoNumber env) (o : ValidateOptions) :
    (UsableOptions env o ∧ ∃ p, configure env o Parser.create = (p, .ok ()) ∧ IsToolParser env o p)
      ∨ (¬ UsableOptions env o ∧ ∃ p, configure env o Parser.create = (p, .throw .invalidArgument)) := by
  rw [configure]
  have e1 : Parser.setDefaultAddress "127.0.0.1".toList Parser.create
    = ({ Parser.create with config := { Parser.create.config with defaultAddress4 := "127.0.0.1".toList } }, .ok ()) := rfl
  rw [PM.bind_of_ok e1]
  have e2 : Parser.setDefaultAddress "::".toList { Parser.create with config := { Parser.create.config with defaultAddress4 := "127.0.0.1".toList } }
    = ({ Parser.create with config := { Parser.create.config with defaultAddress4 := "127.0.0.1".toList, defaultAddress6 := "::".toList } }, .ok ()) := rfl
  rw [PM.bind_of_ok e2]
  rcases setDefaultAddresses_run o.defaultAddress { Parser.create with config :=
      { Parser.create.config with defaultAddress4 := "127.0.0.1".toList, defaultAddress6 := "::".toList } }
    with ⟨h1, l, a4, a6, h2, h3, h4⟩ | ⟨h1, q, h4⟩
  · rw [PM.bind_of_ok h4]
    by_cases hport : Addr.toCInt o.defaultPort < -1 ∨ Addr.toCInt o.defaultPort > 65535
    · refine .inr ⟨fun h => by have := h.port; omega, ?_⟩
      rw [PM.bind_of_throw (by rw [Parser.setDefaultPort, if_pos hport]; rfl)]
      exact ⟨_, rfl⟩
    · rw [PM.bind_of_ok (by rw [Parser.setDefaultPort, if_neg hport]; rfl)]
      rw [PM.bind_of_ok (by
        show Parser.setDefaultMask env "255.255.255.255".toList _ = _
        rw [Parser.setDefaultMask, PM.config_bind, if_neg (by decide)]
        dsimp only
        rw [if_neg (by decide), if_neg (by decide), if_neg (by decide), henv]
        rfl)]
      rw [PM.bind_of_ok (by
        show Parser.setDefaultMask env "FF:FF:FF:FF:FF:FF:FF:FF".toList _ = _
        rw [Parser.setDefaultMask, PM.config_bind, if_neg (by decide)]
        dsimp only
        rw [if_neg (by decide), if_neg (by decide), if_pos (by decide)]
        rfl)]
      cases hn : env.getprotobyname (cstr o.protocol) with
      | none =>
        refine .inr ⟨fun h => h.protocol hn, ?_⟩
        rw [PM.bind_of_throw (by rw [Parser.setProtocolStr, hn]; rfl)]
        exact ⟨_, rfl⟩
      | some n =>
        rw [PM.bind_of_ok (by rw [Parser.setProtocolStr, hn]; rfl)]
        obtain ⟨fl, h5, h6⟩ := setAllows_run o { Parser.create with config := { Parser.create.config with
          defaultAddress4 := a4, defaultAddress6 := a6, defaultMask4 := "255.255.255.255".toList,
          defaultMask6 := "FF:FF:FF:FF:FF:FF:FF:FF".toList, protocol := n, defaultPort := Addr.toCInt o.defaultPort } } rfl
        exact .inl ⟨⟨h1, by omega, by rw [hn]; exact fun h => nomatch h⟩, _, h5,
          ⟨h6, rfl, ⟨l, h2, h3⟩, rfl, rfl, hn, rfl, rfl, rfl⟩⟩
  · rw [PM.bind_of_throw h4]
    exact .inr ⟨fun h => h1 h.addresses, _, rfl⟩

/-- The parser is the only one. -/
theorem toolParser_unique {env : ParseEnv} {o : ValidateOptions} {p q : Parser} (hp : IsToolParser env o p) (hq : IsToolParser env o q) :
    p = q := by
  obtain ⟨⟨flags, sort, a4, a6, m4, m6, protocol, port⟩, error, n⟩ := p
  obtain ⟨⟨flags', sort', a4', a6', m4', m6', protocol', port'⟩, error', n'⟩ := q
  obtain ⟨p1, p2, ⟨l, p3, p4⟩, p5, p6, p7, p8, p9, p10⟩ := hp
  obtain ⟨q1, q2, ⟨l', q3, q4⟩, q5, q6, q7, q8, q9, q10⟩ := hq
  dsimp only at *
  have hl : l = l' := ((defaultParts_iff _ _).1 p3).trans ((defaultParts_iff _ _).1 q3).symm
  subst hl
  have ha := p4.trans q4.symm
  have hn := Option.some.inj (p7.symm.trans q7)
  have hf : flags = flags' := funext fun f => (p1 f).trans (q1 f).symm
  cases ha
  subst hn hf p2 p5 p6 p8 p9 p10 q2 q5 q6 q8 q9 q10
  rfl

theorem canonical_text (db : NetDb) (a : Addr) :
    (Printable a ∧ ∃ s, a.toIpv4or6String db STRING_IP_ALL = .ok s)
      ∨ (¬ Printable a ∧ a.toIpv4or6String db STRING_IP_ALL = .throw .unexpectedMask) := by
  by_cases hp : Printable a
  · exact .inl ⟨hp, _, toIpv4or6String_all db a fun h => (maskCompatible_iff a).2 (hp ((isIpv4_iff a).1 h))⟩
  · refine .inr ⟨hp, ?_⟩
    rw [Printable, Classical.not_imp] at hp
    exact (C57_throws_iff db _ a _).2 ⟨rfl, hp.1, fun h => absurd h.1 (by decide), by
      rw [Addr.wantsMask, show anyOf STRING_IP_ALL STRING_IP_MASK_IF_NEEDED = false from rfl, Bool.not_false, Bool.or_true,
        Bool.and_true]; decide, hp.2⟩

/-! ### The output -/

/-- What a computation adds to the output, and how it ends. -/
def Writes {α : Type} (m : SM Output α) (w : Output) (r : Res α) : Prop :=
  ∀ o, m o = ({ out := o.out ++ w.out, err := o.err ++ w.err }, r)

theorem writes_bind {α β : Type} {m : SM Output α} {f : α → SM Output β} {w w' : Output} {a : α} {r : Res β}
    (h : Writes m w (.ok a)) (h' : Writes (f a) w' r) : Writes (SM.bind m f) { out := w.out ++ w'.out, err := w.err ++ w'.err } r := by
  intro o
  rw [SM.bind, h o]
  dsimp only
  rw [h', List.append_assoc, List.append_assoc]

theorem writes_throw {α β : Type} {m : SM Output α} {f : α → SM Output β} {w : Output} {e : Exc}
    (h : Writes m w (.throw e)) : Writes (SM.bind m f) w (.throw e) := by
  intro o
  rw [SM.bind, h o]

theorem writes_pure {α : Type} (a : α) : Writes (SM.pure a) .empty (.ok a) := by
  intro o
  simp [SM.pure, Output.empty]

theorem writes_lift {α : Type} (r : Res α) : Writes (lift r) .empty r := by
  intro o
  simp [lift, Output.empty]

theorem writes_print (s : Str) : Writes (print s) { out := s, err := [] } (.ok ()) := by
  intro o
  simp [print]

theorem writes_complain (s : Str) : Writes (complain s) { out := [], err := s } (.ok ()) := by
  intro o
  simp [complain]

theorem writes_line (db : NetDb) {r : Range} (hr : Parser.Plain r) :
    (Printable r.lo ∧ Writes (canonicalRange db r) { out := lineOf db r.lo, err := [] } (.ok ()))
      ∨ (¬ Printable r.lo ∧ Writes (canonicalRange db r) .empty (.throw .unexpectedMask)) := by
  have h1 : r.isRange = false := by rw [Range.isRange, hr.1, hr.2.1]; rfl
  rw [canonicalRange, h1, if_neg Bool.false_ne_true, if_pos hr.1]
  rcases canonical_text db r.lo with ⟨hp, s, hs⟩ | ⟨hp, hs⟩
  · refine .inl ⟨hp, ?_⟩
    rw [hs, lineOf, hs]
    have := writes_bind (writes_lift (Res.ok s)) (f := fun s => print (s ++ ['\n'])) (writes_print (s ++ ['\n']))
    exact this
  · refine .inr ⟨hp, ?_⟩
    rw [hs]
    exact writes_throw (writes_lift _)

theorem writes_lines (db : NetDb) (l : List Range) (hl : Parser.All Parser.Plain l) :
    ((∀ r ∈ l, Printable r.lo) ∧ Writes (canonicalLoop db l) { out := l.flatMap fun r => lineOf db r.lo, err := [] } (.ok ()))
      ∨ (¬ (∀ r ∈ l, Printable r.lo) ∧ ∃ w, w.err = [] ∧ Writes (canonicalLoop db l) w (.throw .unexpectedMask)) := by
  induction l with
  | nil => exact .inl ⟨(fun _ h => nomatch h), writes_pure ()⟩
  | cons r l ih =>
    rw [canonicalLoop]
    rcases writes_line db (hl r List.mem_cons_self) with ⟨h1, h2⟩ | ⟨h1, h2⟩
    · rcases ih fun x hx => hl x (List.mem_cons_of_mem _ hx) with ⟨h3, h4⟩ | ⟨h3, w, h4, h5⟩
      · refine .inl ⟨fun x hx => ?_, by
          rw [List.flatMap_cons]; exact writes_bind (f := fun _ => canonicalLoop db l) h2 h4⟩
        rcases List.mem_cons.1 hx with rfl | hx
        · exact h1
        · exact h3 x hx
      · exact .inr ⟨fun h => h3 fun x hx => h x (List.mem_cons_of_mem _ hx), _, by rw [h4]; rfl, writes_bind h2 h5⟩
    · exact .inr ⟨fun h => h1 (h r List.mem_cons_self), _, rfl, writes_throw h2⟩

/-! ### One argument -/

theorem tool_parse {env : ParseEnv} {o : ValidateOptions} {p : Parser} (hp : IsToolParser env o p) (hs : SafeAnswers env) (a : Str) :
    ∃ q l, Parser.parse env a p = (q, .ok l) ∧ Parser.All Parser.Plain l ∧ (q.hasErrors = true ↔ q.getErrorCount ≠ 0)
      ∧ 0 ≤ q.getErrorCount := by
  have hsort : p.config.sort &&& SORT_MERGE = 0 := by rw [hp.sort]; rfl
  obtain ⟨l, hl⟩ := C67_answers_partial env a p ⟨fun _ => hs, fun h => (by rw [hp.flags] at h; cases h),
    fun _ h => by rw [hp.flags] at h; cases h⟩ hsort
  have hu : Parser.parse env a p = Parser.parseUnsorted env a p := by
    rw [parse_eq]
    have : (fun l => PM.lift (Parser.sortResult p.config.sort l)) = fun l => (Pure.pure l : PM (List Range)) := by
      funext l
      rw [sortResult_unsorted _ (by rw [hp.sort]; rfl)]
      rfl
    rw [this, PM.bind_pure]
  have hh : Holds p [] := ⟨hp.noError, hp.noErrors⟩
  obtain ⟨new, hn⟩ := C37_step env (.parse a) p [] hh
  refine ⟨(Parser.parse env a p).1, l, Prod.ext rfl hl, ?_, ?_, ?_⟩
  · rw [hu] at hl
    exact (Parser.plain_parseUnsorted (c := p.config) (env := env) (hp.flags _) (hp.flags _) a p rfl).2 l hl
  · obtain ⟨h1, h2⟩ := hn
    simp only [ParserOp.run] at h1 h2
    rw [h2]
    simp only [Parser.hasErrors, Parser.errorMessages] at h1 ⊢
    rw [h1]
    cases new <;> simp [errorLines]
    omega
  · have h2 := hn.2
    simp only [ParserOp.run] at h2
    rw [h2]
    exact Int.natCast_nonneg _

theorem complaint_eq (a : Str) (q : Parser) : complaint a q = errorReport a q.getErrorCount q.errorMessages := by
  have h : ∀ n : Int, " error".toList ++ ((if n = 1 then [] else ['s']) ++ ": ".toList)
      = if n = 1 then " error: ".toList else " errors: ".toList := by
    intro n
    by_cases hn : n = 1
    · rw [if_pos hn, if_pos hn]; rfl
    · rw [if_neg hn, if_neg hn]; rfl
  have h' : "\n".toList = ['\n'] := rfl
  unfold complaint errorReport
  generalize q.getErrorCount = n, q.errorMessages = m, intStr q.getErrorCount = t
  simp only [List.append_assoc, ← h, h']

/-- What happens to one argument. -/
theorem writes_one {env : ParseEnv} {o : ValidateOptions} {p : Parser} (db : NetDb) (hp : IsToolParser env o p)
    (hc : configure env o Parser.create = (p, .ok ())) (hs : SafeAnswers env) (a : Str) :
    ((o.canonicalize = true → (Parser.parse env a p).1.getErrorCount = 0 →
        ∀ l, (Parser.parse env a p).2 = .ok l → ∀ r ∈ l, Printable r.lo)
      ∧ Writes (validateOne env db o a) { out := linesOf env db o p a, err := reportOf env o p a }
          (.ok (Parser.parse env a p).1.getErrorCount))
    ∨ (¬ (o.canonicalize = true → (Parser.parse env a p).1.getErrorCount = 0 →
        ∀ l, (Parser.parse env a p).2 = .ok l → ∀ r ∈ l, Printable r.lo)
      ∧ ∃ w, w.err = [] ∧ Writes (validateOne env db o a) w (.throw .unexpectedMask)) := by
  obtain ⟨q, l, h1, h2, h3, h4⟩ := tool_parse hp hs a
  have hrun : (configure env o >>= fun _ => Parser.parse env a) Parser.create = (q, .ok l) := by rw [PM.bind_of_ok hc, h1]
  have hone : validateOne env db o a = (if q.hasErrors then
      SM.bind (if o.quiet then SM.pure () else complain (complaint a q)) fun _ => SM.pure q.getErrorCount
    else if o.canonicalize then SM.bind (canonicalLoop db l) fun _ => SM.pure 0
    else SM.pure 0) := by
    rw [validateOne, hrun]
  rw [hone, linesOf, reportOf, h1]
  dsimp only
  by_cases he : q.getErrorCount = 0
  · have hn : ¬ q.hasErrors = true := fun h => h3.1 h he
    rw [if_neg hn, if_pos (c := q.getErrorCount = 0 ∨ o.quiet = true) (.inl he)]
    by_cases hk : o.canonicalize = true
    · rw [if_pos hk, if_pos (c := q.getErrorCount = 0 ∧ o.canonicalize = true) ⟨he, hk⟩]
      rcases writes_lines db l h2 with ⟨h5, h6⟩ | ⟨h5, w, h6, h7⟩
      · refine .inl ⟨fun _ _ l' hl' => by cases hl'; exact h5, ?_⟩
        rw [he]
        have := writes_bind h6 (f := fun _ => SM.pure (0 : Int)) (writes_pure (0 : Int))
        rwa [show Output.empty.out = [] from rfl, show Output.empty.err = [] from rfl, List.append_nil, List.append_nil] at this
      · exact .inr ⟨fun h => h5 (h hk he l rfl), w, h6, writes_throw h7⟩
    · rw [if_neg hk, if_neg (c := q.getErrorCount = 0 ∧ o.canonicalize = true) (fun h => hk h.2)]
      refine .inl ⟨fun h => absurd h hk, ?_⟩
      rw [he]
      exact writes_pure 0
  · rw [if_pos (h3.2 he), if_neg (c := q.getErrorCount = 0 ∧ o.canonicalize = true) (fun h => he h.1)]
    refine .inl ⟨fun _ h => absurd h he, ?_⟩
    by_cases hq : o.quiet = true
    · rw [if_pos hq, if_pos (c := q.getErrorCount = 0 ∨ o.quiet = true) (.inr hq)]
      exact writes_bind (f := fun _ => SM.pure q.getErrorCount) (writes_pure ()) (writes_pure _)
    · rw [if_neg hq, if_neg (c := q.getErrorCount = 0 ∨ o.quiet = true) (fun h => h.elim he hq)]
      have := writes_bind (writes_complain (complaint a q)) (f := fun _ => SM.pure q.getErrorCount) (writes_pure _)
      rw [complaint_eq] at this ⊢
      rwa [show Output.empty.out = [] from rfl, show Output.empty.err = [] from rfl, List.append_nil, List.append_nil] at this

/-- Every argument which is accepted can be printed. -/
def AllPrintable (env : ParseEnv) (o : ValidateOptions) (p : Parser) (l : List Str) : Prop :=
  ∀ a ∈ l, o.canonicalize = true → (Parser.parse env a p).1.getErrorCount = 0 →
    ∀ rs, (Parser.parse env a p).2 = .ok rs → ∀ r ∈ rs, Printable r.lo

theorem writes_run {env : ParseEnv} {o : ValidateOptions} {p : Parser} (db : NetDb) (hp : IsToolParser env o p)
    (hc : configure env o Parser.create = (p, .ok ())) (hs : SafeAnswers env) (l : List Str) :
    (AllPrintable env o p l ∧ ∃ n : Int, 0 ≤ n ∧ (n = 0 ↔ ∀ a ∈ l, (Parser.parse env a p).1.getErrorCount = 0)
      ∧ Writes (validateRun env db o l) { out := l.flatMap (linesOf env db o p), err := l.flatMap (reportOf env o p) } (.ok n))
    ∨ (¬ AllPrintable env o p l ∧ ∃ w, Writes (validateRun env db o l) w (.throw .unexpectedMask)) := by
  induction l with
  | nil => exact .inl ⟨(fun _ h => nomatch h), 0, by omega, ⟨(fun _ _ h => nomatch h), fun _ => rfl⟩, writes_pure 0⟩
  | cons a l ih =>
    rw [validateRun]
    rcases writes_one db hp hc hs a with ⟨h1, h2⟩ | ⟨h1, w, h2, h3⟩
    · obtain ⟨q, rs, e1, _, _, e4⟩ := tool_parse hp hs a
      have e4 : 0 ≤ (Parser.parse env a p).1.getErrorCount := by rw [e1]; exact e4
      rcases ih with ⟨h3, n, h4, h5, h6⟩ | ⟨h3, w, h4⟩
      · refine .inl ⟨fun x hx => ?_, (Parser.parse env a p).1.getErrorCount + n, by omega, ?_, ?_⟩
        · rcases List.mem_cons.1 hx with rfl | hx
          · exact h1
          · exact h3 x hx
        · constructor
          · intro h x hx
            rcases List.mem_cons.1 hx with rfl | hx
            · omega
            · exact h5.1 (by omega) x hx
          · intro h
            rw [h a List.mem_cons_self, h5.2 fun x hx => h x (List.mem_cons_of_mem _ hx)]
            rfl
        · rw [List.flatMap_cons, List.flatMap_cons]
          refine writes_bind (f := fun n => SM.bind (validateRun env db o l) fun m => SM.pure (n + m))
            (w' := { out := l.flatMap (linesOf env db o p), err := l.flatMap (reportOf env o p) }) h2 ?_
          have := writes_bind (f := fun m => SM.pure ((Parser.parse env a p).1.getErrorCount + m)) h6 (writes_pure _)
          rwa [show Output.empty.out = [] from rfl, show Output.empty.err = [] from rfl, List.append_nil, List.append_nil] at this
      · refine .inr ⟨fun h => h3 fun x hx => h x (List.mem_cons_of_mem _ hx), _,
          writes_bind (f := fun n => SM.bind (validateRun env db o l) fun m => SM.pure (n + m)) h2 (writes_throw h4)⟩
    · exact .inr ⟨fun h => h1 (h a List.mem_cons_self), w, writes_throw h3⟩

/-- With options which make no sense, the first argument already ends the tool. -/
theorem run_unusable {env : ParseEnv} {o : ValidateOptions} {p : Parser} (db : NetDb)
    (hc : configure env o Parser.create = (p, .throw .invalidArgument)) (a : Str) (l : List Str) :
    Writes (validateRun env db o (a :: l)) .empty (.throw .invalidArgument) := by
  rw [validateRun]
  refine writes_throw ?_
  have : (configure env o >>= fun _ => Parser.parse env a) Parser.create = (p, .throw .invalidArgument) := by
    rw [PM.bind_of_throw hc]
  rw [validateOne, this]
  exact writes_lift _

/-! ## C72 -/

/-- C72, the statement about the exit status: 0 when every argument is without errors and 1 otherwise. -/
def C72_claim : Prop :=
  ∀ (env : ParseEnv) (db : NetDb) (o : ValidateOptions) (p : Parser), SafeAnswers env → DottedIsNoNumber env → UsableOptions env o →
    IsToolParser env o p →
    (validateMain env db o).2
      = .ok (if ∀ a ∈ o.addresses, (Parser.parse env a p).1.getErrorCount = 0 then 0 else 1)

/-- C72: the exit status. A refused option counts only when there is an argument; a mask which is not the one of an IPv4
address ends the tool when the address is to be printed. -/
theorem C72_exit_status_partial (env : ParseEnv) (db : NetDb) (o : ValidateOptions) (hs : SafeAnswers env)
    (hd : DottedIsNoNumber env) :
    ∃ n : Int, (validateMain env db o).2 = .ok n ∧ (n = 0 ∨ n = 1)
      ∧ (n = 0 ↔ o.addresses = []
          ∨ (UsableOptions env o ∧ ∀ p, IsToolParser env o p → ∀ a ∈ o.addresses, Accepted env o p a)) := by
  rw [validateMain]
  rcases configure_run env hd o with ⟨hu, p, hc, hp⟩ | ⟨hu, p, hc⟩
  · have hall : (∀ q, IsToolParser env o q → ∀ a ∈ o.addresses, Accepted env o q a)
        ↔ (∀ a ∈ o.addresses, (Parser.parse env a p).1.getErrorCount = 0) ∧ AllPrintable env o p o.addresses := by
      constructor
      · exact fun h => ⟨fun a ha => (h p hp a ha).1, fun a ha hk _ => (h p hp a ha).2 hk⟩
      · intro h q hq a ha
        rw [toolParser_unique hq hp]
        exact ⟨h.1 a ha, fun hk => h.2 a ha hk (h.1 a ha)⟩
    rcases writes_run db hp hc hs o.addresses with ⟨h1, n, h2, h3, h4⟩ | ⟨h1, w, h2⟩
    · rw [h4]
      refine ⟨if n ≠ 0 then 1 else 0, rfl, by split <;> omega, ?_⟩
      rw [hall]
      constructor
      · intro h
        have : n = 0 := by
          by_cases hn : n = 0
          · exact hn
          · rw [if_pos hn] at h; omega
        exact .inr ⟨hu, h3.1 this, h1⟩
      · intro h
        rw [if_neg]
        refine not_not_intro (h3.2 ?_)
        rcases h with h | h
        · rw [h]; exact fun _ h => nomatch h
        · exact h.2.1
    · rw [h2]
      refine ⟨1, rfl, .inr rfl, ⟨fun h => by omega, fun h => ?_⟩⟩
      rw [hall] at h
      exfalso
      rcases h with h | h
      · rw [h] at h1; exact h1 fun _ h => nomatch h
      · exact h1 h.2.2
  · cases ha : o.addresses with
    | nil => exact ⟨0, rfl, .inl rfl, ⟨fun _ => .inl rfl, fun _ => rfl⟩⟩
    | cons a l =>
      rw [run_unusable db hc a l]
      exact ⟨1, rfl, .inr rfl, ⟨fun h => by omega, fun h => by
        rcases h with h | h
        · cases h
        · exact absurd h.1 hu⟩⟩

/-- C72: what the tool writes, in the order of the arguments. -/
theorem C72_output (env : ParseEnv) (db : NetDb) (o : ValidateOptions) (p : Parser) (hs : SafeAnswers env) (hd : DottedIsNoNumber env)
    (hu : UsableOptions env o) (hp : IsToolParser env o p)
    (hpr : ∀ a ∈ o.addresses, o.canonicalize = true → (Parser.parse env a p).1.getErrorCount = 0 →
      ∀ l, (Parser.parse env a p).2 = .ok l → ∀ r ∈ l, Printable r.lo) :
    (validateMain env db o).1.out = o.addresses.flatMap (linesOf env db o p)
      ∧ (validateMain env db o).1.err = o.addresses.flatMap (reportOf env o p) := by
  rcases configure_run env hd o with ⟨_, q, hc, hq⟩ | ⟨hn, _⟩
  · have := toolParser_unique hq hp
    subst this
    rcases writes_run db hq hc hs o.addresses with ⟨h1, n, h2, h3, h4⟩ | ⟨h1, _⟩
    · rw [validateMain, h4]
      exact ⟨rfl, rfl⟩
    · exact absurd hpr h1
  · exact absurd hu hn

/-! ### Examples -/

/-- The tool with the option `--mask`. -/
def maskOptions (canonicalize : Bool) (l : List Str) : ValidateOptions := { addresses := l, mask := true, canonicalize := canonicalize }

theorem serviceEnv_dotted : DottedIsNoNumber serviceEnv := by
  show serviceEnv.convert "255.255.255.255".toList = none
  decide +kernel

theorem usable_default (o : ValidateOptions) (h1 : o.defaultAddress = "127.0.0.1,::".toList) (h2 : o.defaultPort = 60000)
    (h3 : o.protocol = "tcp".toList) : UsableOptions serviceEnv o := by
  refine ⟨fun l hl a ha => ?_, by rw [h2]; decide, by rw [h3]; decide +kernel⟩
  rw [defaultParts_iff, h1] at hl
  have hl : l = ["127.0.0.1".toList, "::".toList] := hl
  rw [hl] at ha
  rcases List.mem_cons.1 ha with rfl | ha
  · decide
  · rw [List.mem_singleton.1 ha]; decide

/-- The parser of the tool in the examples. -/
def exampleParser (o : ValidateOptions) : Parser := (configure serviceEnv o Parser.create).1

theorem exampleParser_tool (o : ValidateOptions) (h1 : o.defaultAddress = "127.0.0.1,::".toList) (h2 : o.defaultPort = 60000)
    (h3 : o.protocol = "tcp".toList) : IsToolParser serviceEnv o (exampleParser o) := by
  rcases configure_run serviceEnv serviceEnv_dotted o with ⟨_, p, hc, hp⟩ | ⟨hn, _⟩
  · rw [exampleParser, hc]; exact hp
  · exact absurd (usable_default o h1 h2 h3) hn

/-- An IPv4 address written as an IPv6 address, with a mask. -/
def mappedMask : Str := "::ffff:10.0.0.1/24".toList

theorem C72_claim_fails : ¬ C72_claim := by
  intro h
  have h := h serviceEnv sampleDb (maskOptions true [mappedMask]) (exampleParser (maskOptions true [mappedMask]))
    (glibc_safe serviceEnv_glibc) serviceEnv_dotted (usable_default _ rfl rfl rfl) (exampleParser_tool _ rfl rfl rfl)
  have h1 : (validateMain serviceEnv sampleDb (maskOptions true [mappedMask])).2 = .ok 1 := by decide +kernel
  have h2 : (Parser.parse serviceEnv mappedMask (exampleParser (maskOptions true [mappedMask]))).1.getErrorCount = 0 := by
    decide +kernel
  rw [h1, if_pos] at h
  · cases h
  · intro a ha
    rw [List.mem_singleton.1 ha]
    exact h2

/-- Two arguments, the second one with an error. -/
example : validateMain serviceEnv sampleDb (maskOptions true ["10.0.0.1:80/8".toList, "[::1]:80/129".toList])
    = ({ out := "10.0.0.1:80/8\n".toList,
         err := "address \"[::1]:80/129\" generated 1 error: Unsupported mask size (129, expected 128 at the most for an IPv6).\n\n".toList },
       .ok 1) := by decide +kernel

end Verif
