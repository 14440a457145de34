import Verif.Lemmas.ParserSafe
import Verif.Props.ParserSort

/-!
# Property C67: `parse()` answers

Whatever the text, a call to `parse()` returns a list (what is wrong with the text is in the error messages).
-/

namespace Verif

open Spec

/-! ### Lemmas -/

theorem answerable_unsorted {env : ParseEnv} {p : Parser} (h : Answerable env p.config) : Answerable env (unsortedOf p).config := by
  rw [unsortedOf_config]
  exact ⟨h.lookup, h.protocol, h.mask⟩

theorem parse_unsortedOf (env : ParseEnv) (inp : Str) (p : Parser) :
    Parser.parse env inp (unsortedOf p) = Parser.parseUnsorted env inp (unsortedOf p) := by
  rw [parse_eq]
  have : (fun l => PM.lift (Parser.sortResult (unsortedOf p).config.sort l)) = fun l => (Pure.pure l : PM (List Range)) := by
    funext l
    rw [sortResult_unsorted _ (by rw [unsortedOf_config]; exact unsortedOf_sort _)]
    rfl
  rw [this, PM.bind_pure]

theorem parse_reads {env : ParseEnv} {p : Parser} (h : Answerable env p.config) (inp : Str) :
    ∃ l, (Parser.parse env inp (unsortedOf p)).2 = .ok l := by
  rw [parse_unsortedOf]
  obtain ⟨l, hl, _⟩ := Parser.safe_value (Parser.safe_parseUnsorted (answerable_unsorted h) inp) _ rfl
  exact ⟨l, hl⟩

/-! ## C67 -/

/-- C67, full statement: `parse()` returns a list for every text, whatever was done with the parser before. -/
def C67_claim : Prop := ∀ (h : List (ParseEnv × ParserOp)) (env : ParseEnv) (inp : Str), SafeAnswers env → SomeAnswer env →
  ∃ l, (Parser.parse env inp (ParserOp.runAll h Parser.create)).2 = .ok l

/-- C67: without `SORT_MERGE`, `parse()` returns a list for every text (there is no exception and no undefined behaviour),
provided that the name service answers as it should where it is asked and that, without lookups, the protocol is one which
addresses can have. -/
theorem C67_answers_partial (env : ParseEnv) (inp : Str) (p : Parser) (h : Answerable env p.config)
    (hm : p.config.sort &&& SORT_MERGE = 0) : ∃ l, (Parser.parse env inp p).2 = .ok l := by
  obtain ⟨l, hl⟩ := parse_reads h inp
  obtain ⟨l', h', _⟩ := C43_sort_permutes env inp p hm l hl
  exact ⟨l', h'⟩

/-- C67: with `SORT_MERGE` the only other outcome is the exception `out_of_range`. -/
theorem C67_merge_partial (env : ParseEnv) (inp : Str) (p : Parser) (h : Answerable env p.config) :
    (∃ l, (Parser.parse env inp p).2 = .ok l) ∨ (Parser.parse env inp p).2 = .throw .outOfRange := by
  by_cases hm : p.config.sort &&& SORT_MERGE = 0
  · exact .inl (C67_answers_partial env inp p h hm)
  · obtain ⟨l, hl⟩ := parse_reads h inp
    rcases C43_merge_partial env inp p hm l hl with h' | ⟨l', h', _⟩
    · exact .inr h'
    · exact .inl ⟨l', h'⟩

/-- C67: no text leads to undefined behaviour, whatever the options of the parser, provided that `getaddrinfo()` either
fails or gives at least one answer for the text of a mask. -/
theorem C67_no_ub (env : ParseEnv) (inp : Str) (p : Parser) (h : SomeAnswer env) (w : UB) : (Parser.parse env inp p).2 ≠ .ub w := by
  rw [Ne, (C43_reading_unchanged env inp p).2.2.2 w, parse_unsortedOf]
  exact Parser.noUb_parseUnsorted env h inp _ w

theorem setDefaultPort_protocol {p : Parser} (hp : KnownProtocol p.config.protocol) (port : Int) :
    KnownProtocol (Parser.setDefaultPort port p).1.config.protocol := by
  rw [Parser.setDefaultPort]
  split <;> exact hp

/-- The protocol of the parser is a known one after the call. -/
def After (p : Parser) (m : PM Unit) : Prop := KnownProtocol (m p).1.config.protocol

theorem after_config {p : Parser} {f : Config → PM Unit} (h : After p (f p.config)) : After p (PM.config >>= f) := by
  rw [After, PM.config_bind]
  exact h

/-- The protocol of the parser comes from `set_protocol()`. -/
theorem runAll_protocol (h : List (ParseEnv × ParserOp)) (p : Parser) (hp : KnownProtocol p.config.protocol)
    (hn : ∀ e n, (e, ParserOp.setProtocolStr n) ∈ h → ∀ k, e.getprotobyname (cstr n) = some k → KnownProtocol k) :
    KnownProtocol (ParserOp.runAll h p).config.protocol := by
  induction h generalizing p with
  | nil => exact hp
  | cons x h ih =>
    obtain ⟨e, op⟩ := x
    refine ih _ ?_ fun e' n' hmem => hn e' n' (List.mem_cons_of_mem _ hmem)
    cases op with
    | setAllow flag allow =>
      show KnownProtocol (Parser.setAllow flag allow p).1.config.protocol
      rw [Parser.setAllow]
      cases Allow.ofInt flag with
      | none => exact hp
      | some f => cases allow <;> cases f <;> exact hp
    | setDefaultAddress address =>
      show After p (Parser.setDefaultAddress address)
      rw [Parser.setDefaultAddress]
      refine after_config ?_
      split
      · exact hp
      · split <;> exact hp
      · split <;> exact hp
    | setDefaultPort port => exact setDefaultPort_protocol hp port
    | setDefaultPortStr port =>
      show KnownProtocol (Parser.setDefaultPortStr e port p).1.config.protocol
      rw [Parser.setDefaultPortStr]
      split
      · exact setDefaultPort_protocol hp _
      · cases e.convert port with
        | none => exact hp
        | some k => exact setDefaultPort_protocol hp _
    | setDefaultMask mask =>
      show After p (Parser.setDefaultMask e mask)
      rw [Parser.setDefaultMask]
      refine after_config ?_
      dsimp only
      repeat' split
      all_goals exact hp
    | setProtocol protocol =>
      show KnownProtocol (Parser.setProtocol protocol p).1.config.protocol
      rw [Parser.setProtocol]
      split
      · rename_i h
        exact .inr h
      · exact hp
    | setProtocolStr protocol =>
      show KnownProtocol (Parser.setProtocolStr e protocol p).1.config.protocol
      rw [Parser.setProtocolStr]
      cases hk : e.getprotobyname (cstr protocol) with
      | none => exact hp
      | some k => exact hn e protocol List.mem_cons_self k hk
    | clearProtocol => exact .inl rfl
    | setSortOrder sort =>
      show KnownProtocol (Parser.setSortOrder sort p).1.config.protocol
      rw [Parser.setSortOrder]
      split <;> exact hp
    | emitError msg => exact hp
    | clearErrors => exact hp
    | parse inp =>
      show KnownProtocol (Parser.parse e inp p).1.config.protocol
      rw [parse_config]
      exact hp

/-- C67: whatever was done with the parser before, `parse()` returns a list for every text, or throws `out_of_range` (possible
with `SORT_MERGE` only), when the names given to `set_protocol()` were those of IP, TCP or UDP. -/
theorem C67_history_partial (h : List (ParseEnv × ParserOp)) (env : ParseEnv) (inp : Str) (hs : SafeAnswers env) (hm : SomeAnswer env)
    (hn : ∀ e n, (e, ParserOp.setProtocolStr n) ∈ h → ∀ k, e.getprotobyname (cstr n) = some k → KnownProtocol k) :
    let p := ParserOp.runAll h Parser.create
    (∃ l, (Parser.parse env inp p).2 = .ok l)
      ∨ (p.config.sort &&& SORT_MERGE ≠ 0 ∧ (Parser.parse env inp p).2 = .throw .outOfRange) := by
  intro p
  have ha : Answerable env p.config := ⟨fun _ => hs, fun _ => runAll_protocol h _ (.inl rfl) hn, fun _ _ => hm⟩
  by_cases hm : p.config.sort &&& SORT_MERGE = 0
  · exact .inl (C67_answers_partial env inp p ha hm)
  · exact (C67_merge_partial env inp p ha).imp_right fun h => ⟨hm, h⟩

theorem sampleEnv_safe : SafeAnswers sampleEnv ∧ SomeAnswer sampleEnv := ⟨(fun _ _ _ _ _ h => nomatch h), (fun _ _ _ h => nomatch h)⟩

/-- C67: a name of another protocol is accepted by `set_protocol()` (`getprotobyname()` knows it), and every address read
without lookup then throws. -/
theorem C67_protocol_fails :
    (Parser.setProtocolStr sampleEnv "icmp".toList sampleParser).2 = .ok ()
      ∧ (Parser.parse sampleEnv "10.0.0.1".toList (Parser.setProtocolStr sampleEnv "icmp".toList sampleParser).1).2 = .throw .invalidArgument := by
  constructor <;> decide +kernel

theorem C67_claim_fails : ¬ C67_claim := by
  intro h
  obtain ⟨l, hl⟩ := h [(sampleEnv, .setAllow 5 false), (sampleEnv, .setProtocolStr "icmp".toList)] sampleEnv "10.0.0.1".toList
    sampleEnv_safe.1 sampleEnv_safe.2
  exact absurd (C67_protocol_fails.2.symm.trans hl) (fun h => nomatch h)

/-- C67: the answer of `getaddrinfo()` about a mask is read without looking whether there is one. -/
theorem C67_empty_answer_fails :
    (Parser.parse { sampleEnv with getaddrinfo := fun _ _ _ _ => .list [] } "10.0.0.1/255.0.0.0".toList
      (ParserOp.runAll [(sampleEnv, .setAllow 9 true), (sampleEnv, .setAllow 10 true)] sampleParser)).2 = .ub .nullDereference := by
  decide +kernel

-- The hypotheses of the theorems are met, and the list need not be empty.
example : Answerable sampleEnv listParser.config := ⟨fun _ => sampleEnv_safe.1, fun _ => .inl rfl, fun _ _ => sampleEnv_safe.2⟩

example : (match (Parser.parse sampleEnv "10.0.0.1,not an address,::1".toList listParser).2 with | .ok l => l.length | _ => 0) = 2 := by
  decide +kernel

end Verif
