import Verif.Lemmas.ParserSame
import Mathlib.Tactic.IntervalCases

/-!
# Properties C36–C39: the state of the parser
-/

namespace Verif

/-- Decimal numbers only, for the examples. -/
def sampleConvert (s : Str) : Option Int :=
  if s ≠ [] ∧ s.all Char.isDigit then some (s.foldl (fun n c => n * 10 + (c.toNat - 48)) 0) else none

/-- An environment for the examples: no name is known, numbers are decimal. -/
def sampleEnv : ParseEnv where
  getaddrinfo _ _ _ _ := .error (-2) 0
  gaiStrerror _ := "Name or service not known".toList
  strerror _ := "Success".toList
  convert := sampleConvert
  getprotobyname s := if s = "tcp".toList then some 6 else if s = "icmp".toList then some 1 else none

/-- A parser which does no lookup, for the examples. -/
def sampleParser : Parser := ParserOp.runAll [(sampleEnv, .setAllow 5 false)] Parser.create

/-! ## C36 -/

/-- The number of each flag in addr_parser.h:42-67. -/
def flagNumber : Allow → Int
  | .address => 0 | .requiredAddress => 1 | .multiAddressesCommas => 2 | .multiAddressesSpaces => 3
  | .multiAddressesNewlines => 4 | .addressLookup => 5 | .addressRange => 6 | .port => 7 | .requiredPort => 8
  | .mask => 9 | .addressMask => 10 | .commentHash => 11 | .commentSemicolon => 12 | .multiPortsSemicolons => 13
  | .multiPortsCommas => 14 | .portRange => 15

theorem ofInt_iff (n : Int) (f : Allow) : Allow.ofInt n = some f ↔ n = flagNumber f := by
  constructor
  · intro h
    unfold Allow.ofInt at h
    split at h
    · cases h
    · have hn : n.toNat < 16 := by
        rcases Nat.lt_or_ge n.toNat 16 with h' | h'
        · exact h'
        · rw [List.getElem?_eq_none (by simpa using h')] at h
          cases h
      have hk : n = (n.toNat : Int) := by omega
      generalize n.toNat = k at *
      subst hk
      revert f
      interval_cases k <;> intro f h <;> (simp at h; subst h; rfl)
  · rintro rfl
    cases f <;> rfl

theorem ofInt_none_iff (n : Int) : Allow.ofInt n = none ↔ ∀ f, n ≠ flagNumber f := by
  constructor
  · intro h f hf
    rw [(ofInt_iff n f).2 hf] at h
    cases h
  · intro h
    cases hn : Allow.ofInt n with
    | none => rfl
    | some f => exact absurd ((ofInt_iff n f).1 hn) (h f)

/-- The value of a flag after one more call: what it was set to; the two flags about commas exclude each other. -/
def flagStep (f : Allow) (v : Bool) : ParserOp → Bool
  | .setAllow n b =>
    if n = flagNumber f then b
    else if b = true ∧ ((n = 2 ∧ f = .multiPortsCommas) ∨ (n = 14 ∧ f = .multiAddressesCommas)) then false
    else v
  | _ => v

/-- Call `set_allow()`. -/
theorem setAllow_flags (n : Int) (b : Bool) (p : Parser) (f : Allow) :
    (Parser.setAllow n b p).1.config.flags f = flagStep f (p.config.flags f) (.setAllow n b) := by
  unfold Parser.setAllow
  cases hn : Allow.ofInt n with
  | none =>
    rw [ofInt_none_iff] at hn
    have h2 : n ≠ 2 := hn .multiAddressesCommas
    have h14 : n ≠ 14 := hn .multiPortsCommas
    simp [flagStep, hn f, h2, h14]
  | some g =>
    rw [ofInt_iff] at hn
    subst hn
    cases b <;> cases g <;> cases f <;> rfl

theorem parse_config (env : ParseEnv) (inp : Str) (p : Parser) : (Parser.parse env inp p).1.config = p.config := by
  obtain ⟨errs, r, h⟩ := Parser.logging_parse env p.config inp
  rw [h p rfl]
  rfl

/-- Only `set_allow()` changes the flags. -/
theorem run_flags (env : ParseEnv) (op : ParserOp) (p : Parser) (f : Allow) :
    (op.run env p).config.flags f = flagStep f (p.config.flags f) op := by
  cases op with
  | setAllow n b => exact setAllow_flags n b p f
  | parse inp => simp only [ParserOp.run, parse_config, flagStep]
  | emitError msg => rfl
  | clearErrors => rfl
  | clearProtocol => rfl
  | setDefaultAddress a =>
    simp only [ParserOp.run, Parser.setDefaultAddress, PM.config_bind, flagStep]
    repeat' split
    all_goals rfl
  | setDefaultPort n =>
    simp only [ParserOp.run, Parser.setDefaultPort, flagStep]
    split <;> rfl
  | setDefaultPortStr s =>
    simp only [ParserOp.run, Parser.setDefaultPortStr, Parser.setDefaultPort, flagStep]
    cases env.convert s <;> dsimp only
    repeat' split
    all_goals rfl
  | setDefaultMask m =>
    simp only [ParserOp.run, Parser.setDefaultMask, PM.config_bind, flagStep]
    cases env.convert m <;> dsimp only
    repeat' split
    all_goals rfl
  | setProtocol n =>
    simp only [ParserOp.run, Parser.setProtocol, flagStep]
    split <;> rfl
  | setProtocolStr s =>
    simp only [ParserOp.run, Parser.setProtocolStr, flagStep]
    cases env.getprotobyname (cstr s) <;> rfl
  | setSortOrder n =>
    simp only [ParserOp.run, Parser.setSortOrder, flagStep]
    split <;> rfl

theorem runAll_flags (h : List (ParseEnv × ParserOp)) (p : Parser) (f : Allow) :
    (ParserOp.runAll h p).config.flags f = (h.map (·.2)).foldl (flagStep f) (p.config.flags f) := by
  induction h generalizing p with
  | nil => rfl
  | cons x l ih =>
    rcases x with ⟨env, op⟩
    rw [ParserOp.runAll, ih, run_flags]
    rfl

/-- C36: after any history of calls, each flag has the value it was last given (through the two flags about commas each
clearing the other one when set); addresses, lookups and ports are allowed at first. -/
theorem C36_flag_value (h : List (ParseEnv × ParserOp)) (f : Allow) :
    (ParserOp.runAll h Parser.create).config.flags f
      = (h.map (·.2)).foldl (flagStep f) (decide (f = .address ∨ f = .addressLookup ∨ f = .port)) := by
  rw [runAll_flags]
  congr 1
  cases f <;> rfl

/-- C36: the history does not matter before the last call about a flag. -/
theorem C36_last_value_wins (h : List (ParseEnv × ParserOp)) (env : ParseEnv) (f : Allow) (b : Bool) (p : Parser) :
    (ParserOp.runAll (h ++ [(env, .setAllow (flagNumber f) b)]) p).config.flags f = b := by
  rw [runAll_flags]
  simp [flagStep]

/-- C36: commas are never allowed both between addresses and between ports. -/
theorem C36_commas_exclusive (h : List (ParseEnv × ParserOp)) :
    ¬ ((ParserOp.runAll h Parser.create).config.flags .multiAddressesCommas = true
        ∧ (ParserOp.runAll h Parser.create).config.flags .multiPortsCommas = true) := by
  have key : ∀ p : Parser, ¬ (p.config.flags .multiAddressesCommas = true ∧ p.config.flags .multiPortsCommas = true) →
      ¬ ((ParserOp.runAll h p).config.flags .multiAddressesCommas = true
        ∧ (ParserOp.runAll h p).config.flags .multiPortsCommas = true) := by
    induction h with
    | nil => exact fun p hp => hp
    | cons x l ih =>
      rcases x with ⟨env, op⟩
      intro p hp
      refine ih _ ?_
      rw [run_flags, run_flags]
      cases op with
      | setAllow n b =>
        simp only [flagStep, flagNumber]
        by_cases h2 : n = 2
        · subst h2
          cases b <;> simp
        · by_cases h14 : n = 14
          · subst h14
            cases b <;> simp
          · simpa [h2, h14] using hp
      | _ => exact hp
  exact key _ (by decide)

/-- C36: `get_allow()` gives the flag back and refuses the numbers which are no flag; so does `set_allow()`, which then
changes nothing. -/
theorem C36_get_allow (p : Parser) (n : Int) (b : Bool) :
    (∀ f, n = flagNumber f → Parser.getAllowInt n p = (p, .ok (p.config.flags f))
        ∧ (Parser.setAllow n b p).2 = .ok ())
    ∧ ((∀ f, n ≠ flagNumber f) → Parser.getAllowInt n p = (p, .throw .invalidArgument)
        ∧ Parser.setAllow n b p = (p, .throw .invalidArgument)) := by
  constructor
  · intro f hf
    unfold Parser.getAllowInt Parser.setAllow
    rw [(ofInt_iff n f).2 hf]
    refine ⟨rfl, ?_⟩
    cases b <;> cases f <;> rfl
  · intro hf
    unfold Parser.getAllowInt Parser.setAllow
    rw [(ofInt_none_iff n).2 hf]
    exact ⟨rfl, rfl⟩

example :
    let p := ParserOp.runAll [(sampleEnv, .setAllow 14 true), (sampleEnv, .setAllow 2 true), (sampleEnv, .setAllow 16 true)]
      Parser.create
    p.config.flags .multiAddressesCommas = true ∧ p.config.flags .multiPortsCommas = false := by
  decide +kernel

/-! ## C37 -/

/-- One line for each message. -/
def errorLines (msgs : List Str) : Str := msgs.flatMap (· ++ ['\n'])

/-- The messages the parser holds are `msgs`. -/
def Holds (p : Parser) (msgs : List Str) : Prop :=
  p.errorMessages = errorLines msgs ∧ p.getErrorCount = msgs.length

theorem holds_emitAll {p : Parser} {msgs new : List Str} (h : Holds p msgs) : Holds (Parser.emitAll new p) (msgs ++ new) := by
  obtain ⟨h1, h2⟩ := h
  constructor
  · simp only [Parser.errorMessages, Parser.emitAll, errorLines, List.flatMap_append] at h1 ⊢
    rw [h1]
  · simp only [Parser.getErrorCount, Parser.emitAll, List.length_append] at h2 ⊢
    rw [h2]
    omega

/-- What a call which is neither `emit_error()`, `clear_errors()` nor `parse()` does to the errors: nothing. -/
theorem run_errors (env : ParseEnv) (op : ParserOp) (p : Parser) (h1 : ∀ m, op ≠ .emitError m) (h2 : op ≠ .clearErrors)
    (h3 : ∀ i, op ≠ .parse i) : (op.run env p).error = p.error ∧ (op.run env p).errorCount = p.errorCount := by
  cases op with
  | setAllow n b =>
    simp only [ParserOp.run, Parser.setAllow]
    cases Allow.ofInt n with
    | none => exact ⟨rfl, rfl⟩
    | some f => cases b <;> cases f <;> exact ⟨rfl, rfl⟩
  | parse inp => exact absurd rfl (h3 inp)
  | emitError msg => exact absurd rfl (h1 msg)
  | clearErrors => exact absurd rfl h2
  | clearProtocol => exact ⟨rfl, rfl⟩
  | setDefaultAddress a =>
    simp only [ParserOp.run, Parser.setDefaultAddress, PM.config_bind]
    repeat' split
    all_goals exact ⟨rfl, rfl⟩
  | setDefaultPort n =>
    simp only [ParserOp.run, Parser.setDefaultPort]
    split <;> exact ⟨rfl, rfl⟩
  | setDefaultPortStr s =>
    simp only [ParserOp.run, Parser.setDefaultPortStr, Parser.setDefaultPort]
    cases env.convert s <;> dsimp only
    repeat' split
    all_goals exact ⟨rfl, rfl⟩
  | setDefaultMask m =>
    simp only [ParserOp.run, Parser.setDefaultMask, PM.config_bind]
    cases env.convert m <;> dsimp only
    repeat' split
    all_goals exact ⟨rfl, rfl⟩
  | setProtocol n =>
    simp only [ParserOp.run, Parser.setProtocol]
    split <;> exact ⟨rfl, rfl⟩
  | setProtocolStr s =>
    simp only [ParserOp.run, Parser.setProtocolStr]
    cases env.getprotobyname (cstr s) <;> exact ⟨rfl, rfl⟩
  | setSortOrder n =>
    simp only [ParserOp.run, Parser.setSortOrder]
    split <;> exact ⟨rfl, rfl⟩

/-- C37, one call: `emit_error()` adds its message at the end, `clear_errors()` removes all messages, `parse()` adds
messages at the end and the other functions do not touch them. -/
theorem C37_step (env : ParseEnv) (op : ParserOp) (p : Parser) (msgs : List Str) (h : Holds p msgs) :
    match op with
    | .emitError m => Holds (op.run env p) (msgs ++ [m])
    | .clearErrors => Holds (op.run env p) []
    | .parse _ => ∃ new, Holds (op.run env p) (msgs ++ new)
    | _ => Holds (op.run env p) msgs := by
  have other : (∀ m, op ≠ .emitError m) → op ≠ .clearErrors → (∀ i, op ≠ .parse i) → Holds (op.run env p) msgs := by
    intro h1 h2 h3
    obtain ⟨e1, e2⟩ := run_errors env op p h1 h2 h3
    exact ⟨by simp only [Parser.errorMessages, e1]; exact h.1, by simp only [Parser.getErrorCount, e2]; exact h.2⟩
  cases op with
  | emitError m =>
    simp only [ParserOp.run, Parser.emitError_apply]
    exact holds_emitAll h
  | clearErrors => exact ⟨rfl, rfl⟩
  | parse inp =>
    obtain ⟨errs, r, hl⟩ := Parser.logging_parse env p.config inp
    refine ⟨errs, ?_⟩
    simp only [ParserOp.run, hl p rfl]
    exact holds_emitAll h
  | _ => exact other (fun _ h => nomatch h) (fun h => nomatch h) (fun _ h => nomatch h)

/-- C37: after any history of calls, the parser holds one line for each error, `error_count()` is the number of errors and
`has_errors()` says whether there are some. -/
theorem C37_errors_coherent (h : List (ParseEnv × ParserOp)) :
    let p := ParserOp.runAll h Parser.create
    (∃ msgs, Holds p msgs) ∧ (p.hasErrors = true ↔ p.getErrorCount ≠ 0) ∧ 0 ≤ p.getErrorCount := by
  have key : ∀ p : Parser, (∃ msgs, Holds p msgs) → ∃ msgs, Holds (ParserOp.runAll h p) msgs := by
    induction h with
    | nil => exact fun p hp => hp
    | cons x l ih =>
      rcases x with ⟨env, op⟩
      rintro p ⟨msgs, hp⟩
      refine ih _ ?_
      have := C37_step env op p msgs hp
      cases op with
      | parse inp =>
        obtain ⟨new, this⟩ := this
        exact ⟨_, this⟩
      | _ => exact ⟨_, this⟩
  obtain ⟨msgs, hm⟩ := key Parser.create ⟨[], rfl, rfl⟩
  refine ⟨⟨msgs, hm⟩, ?_, ?_⟩
  · obtain ⟨h1, h2⟩ := hm
    rw [h2]
    simp only [Parser.hasErrors, Parser.errorMessages] at h1 ⊢
    rw [h1]
    cases msgs <;> simp [errorLines]
    omega
  · rw [hm.2]
    omega

example :
    let p := ParserOp.runAll [(sampleEnv, .setAllow 5 false), (sampleEnv, .parse "1.2.3".toList), (sampleEnv, .emitError "x".toList)]
      Parser.create
    p.getErrorCount = 2
      ∧ p.errorMessages = "Unknown address in \"1.2.3\" (no DNS lookup was allowed).\nx\n".toList := by
  decide +kernel

/-! ## C38 -/

/-- C38: `parse()` changes no configuration; the ranges it returns (or the exception) and the errors it adds depend on the
configuration and on the input only, not on the errors there were before. -/
theorem C38_parse_deterministic (env : ParseEnv) (inp : Str) (c : Config) :
    ∃ (new : List Str) (r : Res (List Range)), ∀ p : Parser, p.config = c →
      (Parser.parse env inp p).2 = r
        ∧ (Parser.parse env inp p).1.config = c
        ∧ (Parser.parse env inp p).1.errorMessages = p.errorMessages ++ errorLines new
        ∧ (Parser.parse env inp p).1.getErrorCount = p.getErrorCount + new.length := by
  obtain ⟨new, r, h⟩ := Parser.logging_parse env c inp
  refine ⟨new, r, fun p hp => ?_⟩
  rw [h p hp]
  exact ⟨rfl, hp, rfl, rfl⟩

/-- C38: parsing the same text twice returns the same ranges and adds the same errors again. -/
theorem C38_parse_twice (env : ParseEnv) (inp : Str) (p : Parser) :
    let first := Parser.parse env inp p
    let second := Parser.parse env inp first.1
    second.2 = first.2
      ∧ ∃ new : List Str, first.1.errorMessages = p.errorMessages ++ errorLines new
        ∧ second.1.errorMessages = first.1.errorMessages ++ errorLines new
        ∧ second.1.getErrorCount - first.1.getErrorCount = first.1.getErrorCount - p.getErrorCount := by
  obtain ⟨new, r, h⟩ := C38_parse_deterministic env inp p.config
  have h1 := h p rfl
  have h2 := h (Parser.parse env inp p).1 h1.2.1
  refine ⟨by rw [h1.1, h2.1], new, h1.2.2.1, h2.2.2.1, ?_⟩
  rw [h2.2.2.2, h1.2.2.2]
  omega

example :
    let q := (Parser.parse sampleEnv "1.2.3.4".toList sampleParser).2
    (match q with | .ok [r] => r.hasFrom && r.lo.isIpv4 | _ => false) = true
      ∧ (Parser.parse sampleEnv "1.2.3.4".toList (ParserOp.runAll [(sampleEnv, .emitError "x".toList)] sampleParser)).2 = q := by
  decide +kernel

/-! ## C39 -/

/-- C39: when neither lookups nor masks written as addresses are allowed, the outcome of `parse()` is the same whatever
`getaddrinfo()` answers. -/
theorem C39_no_name_service (env1 env2 : ParseEnv) (hconv : env1.convert = env2.convert) (p : Parser) (inp : Str)
    (hl : p.config.flags .addressLookup = false)
    (hm : p.config.flags .addressMask = false ∨ p.config.flags .mask = false) :
    Parser.parse env1 inp p = Parser.parse env2 inp p :=
  Parser.same_parse hconv hl hm inp p rfl

/-- An environment for the examples: each name is 127.0.0.1. -/
def loopbackEnv : ParseEnv :=
  { sampleEnv with
    getaddrinfo := fun _ _ _ _ =>
      .list [.inet 16 6 { family := AF_INET, port := 0, addr := #v[127, 0, 0, 1], zero := Vector.replicate 8 0 }] }

/-- The hypotheses are met, and with lookups the name service does matter. -/
example : sampleParser.config.flags .addressLookup = false
    ∧ Parser.parse loopbackEnv "foo".toList sampleParser = Parser.parse sampleEnv "foo".toList sampleParser
    ∧ (Parser.parse loopbackEnv "foo".toList Parser.create).2 ≠ (Parser.parse sampleEnv "foo".toList Parser.create).2 := by
  refine ⟨rfl, C39_no_name_service loopbackEnv sampleEnv rfl sampleParser _ (by decide) (Or.inl (by decide)), by decide +kernel⟩

end Verif
