import Verif.Lemmas.ValidatorRun
import Verif.Props.ParserPrint

/-!
# Properties C55, C69 and C70: the address validator
-/

namespace Verif

open Spec Inet

/-! ### Lemmas -/

theorem created {env : Validator.Env} {data : List Str} {v : Parser} {n : Nat} (h : Validator.create env data = .ok (v, n)) :
    Validator.options env data Parser.create = (v, .ok n) := by
  unfold Validator.create at h
  revert h
  rcases Validator.options env data Parser.create with ⟨p, k | e | w⟩
  · intro h
    cases h
    rfl
  · exact fun h => nomatch h
  · exact fun h => nomatch h

theorem created_rest {env : Validator.Env} {data : List Str} {v : Parser} {n : Nat} (h : Validator.create env data = .ok (v, n)) :
    v.config.sort = 0 ∧ v.config.protocol = -1 ∧ v.error = [] ∧ v.errorCount = 0 := by
  obtain ⟨h1, _⟩ := Validator.options_flags env data _ v n rfl (created h)
  exact ⟨h1.sort, h1.protocol, h1.error, h1.errorCount⟩

theorem validate_eq (env : ParseEnv) (value : Str) (p : Parser) :
    Validator.validate env value p =
      match Parser.parse env value { p with error := [], errorCount := 0 } with
      | (q, .ok _) => (q, .ok (if q.hasErrors then (false, some q.errorMessages) else (true, none)))
      | (q, .throw e) => (q, .throw e)
      | (q, .ub w) => (q, .ub w) := by
  have h : ∀ (m : PM (Bool × Option Str)) (k : PM (List Range)), m = (k >>= fun _ => fun p => (p, Res.ok (if p.hasErrors then
      (false, some p.errorMessages) else (true, none)))) → ∀ q, m q = match k q with
      | (q, .ok _) => (q, .ok (if q.hasErrors then (false, some q.errorMessages) else (true, none)))
      | (q, .throw e) => (q, .throw e)
      | (q, .ub w) => (q, .ub w) := by
    rintro m k rfl q
    refine (PM.bind_def _ _ _).trans ?_
    rcases k q with ⟨q, a | e | w⟩ <;> rfl
  exact h _ (Parser.parse env value) rfl { p with error := [], errorCount := 0 }

theorem validate_config (env : ParseEnv) (value : Str) (p : Parser) : (Validator.validate env value p).1.config = p.config := by
  have h : (Parser.parse env value { p with error := [], errorCount := 0 }).1.config = p.config := parse_config env value _
  rw [validate_eq]
  revert h
  rcases Parser.parse env value { p with error := [], errorCount := 0 } with ⟨q, a | e | w⟩ <;> exact fun h => h

theorem validateAll_config (calls : List (ParseEnv × Str)) (p : Parser) : (Validator.validateAll calls p).config = p.config := by
  induction calls generalizing p with
  | nil => rfl
  | cons c l ih => rw [Validator.validateAll, ih, validate_config]

theorem validate_after {env : Validator.Env} {data : List Str} {v : Parser} {n : Nat} (h : Validator.create env data = .ok (v, n))
    (calls : List (ParseEnv × Str)) (penv : ParseEnv) (value : Str) :
    Validator.validate penv value (Validator.validateAll calls v) =
      match Parser.parse penv value v with
      | (q, .ok _) => (q, .ok (if q.hasErrors then (false, some q.errorMessages) else (true, none)))
      | (q, .throw e) => (q, .throw e)
      | (q, .ub w) => (q, .ub w) := by
  obtain ⟨_, _, h3, h4⟩ := created_rest h
  have : ({ Validator.validateAll calls v with error := [], errorCount := 0 } : Parser) = v := by
    show Parser.mk (Validator.validateAll calls v).config [] 0 = v
    rw [validateAll_config]
    cases v
    dsimp only at h3 h4
    rw [h3, h4]
  rw [validate_eq, this]

/-! ## C55 -/

/-- C55: whatever values were validated before, a value is valid exactly when the parser which the validator was constructed
with parses it and has no error afterwards. -/
theorem C55_valid_iff (env : Validator.Env) (data : List Str) (v : Parser) (n : Nat) (h : Validator.create env data = .ok (v, n))
    (calls : List (ParseEnv × Str)) (penv : ParseEnv) (value : Str) :
    (∃ m, (Validator.validate penv value (Validator.validateAll calls v)).2 = .ok (true, m))
      ↔ (∃ l, (Parser.parse penv value v).2 = .ok l) ∧ (Parser.parse penv value v).1.hasErrors = false := by
  rw [validate_after h]
  rcases Parser.parse penv value v with ⟨q, a | e | w⟩
  · dsimp only
    by_cases hq : q.hasErrors = true
    · rw [if_pos hq]
      exact ⟨(fun ⟨m, h⟩ => nomatch h), fun h => absurd (h.2.symm.trans hq) (fun h => nomatch h)⟩
    · rw [if_neg hq]
      exact ⟨fun _ => ⟨⟨a, rfl⟩, by simpa using hq⟩, fun _ => ⟨none, rfl⟩⟩
  · exact ⟨(fun ⟨m, h⟩ => nomatch h), (fun ⟨⟨l, h⟩, _⟩ => nomatch h)⟩
  · exact ⟨(fun ⟨m, h⟩ => nomatch h), (fun ⟨⟨l, h⟩, _⟩ => nomatch h)⟩

/-- C55: a value is refused exactly when the parser has errors afterwards, and these are the errors of the validator. -/
theorem C55_invalid_iff (env : Validator.Env) (data : List Str) (v : Parser) (n : Nat) (h : Validator.create env data = .ok (v, n))
    (calls : List (ParseEnv × Str)) (penv : ParseEnv) (value : Str) (m : Option Str) :
    (Validator.validate penv value (Validator.validateAll calls v)).2 = .ok (false, m)
      ↔ (∃ l, (Parser.parse penv value v).2 = .ok l) ∧ (Parser.parse penv value v).1.errorMessages ≠ []
        ∧ m = some (Parser.parse penv value v).1.errorMessages := by
  rw [validate_after h]
  rcases Parser.parse penv value v with ⟨q, a | e | w⟩
  · dsimp only
    have hq : q.hasErrors = true ↔ q.errorMessages ≠ [] := by
      unfold Parser.hasErrors Parser.errorMessages
      cases q.error <;> simp
    by_cases he : q.hasErrors = true
    · rw [if_pos he]
      constructor
      · intro h'
        cases h'
        exact ⟨⟨a, rfl⟩, hq.1 he, rfl⟩
      · rintro ⟨_, _, rfl⟩
        rfl
    · rw [if_neg he]
      exact ⟨(fun h => nomatch h), fun h => absurd (hq.2 h.2.1) he⟩
  · exact ⟨(fun h => nomatch h), (fun ⟨⟨l, h⟩, _⟩ => nomatch h)⟩
  · exact ⟨(fun h => nomatch h), (fun ⟨⟨l, h⟩, _⟩ => nomatch h)⟩

/-- C55: validating throws exactly what the parser throws. -/
theorem C55_throws_iff (env : Validator.Env) (data : List Str) (v : Parser) (n : Nat) (h : Validator.create env data = .ok (v, n))
    (calls : List (ParseEnv × Str)) (penv : ParseEnv) (value : Str) (e : Exc) :
    (Validator.validate penv value (Validator.validateAll calls v)).2 = .throw e ↔ (Parser.parse penv value v).2 = .throw e := by
  rw [validate_after h]
  rcases Parser.parse penv value v with ⟨q, a | e' | w⟩
  · exact ⟨(fun h => nomatch h), (fun h => nomatch h)⟩
  · exact ⟨fun h => by cases h; rfl, fun h => by cases h; rfl⟩
  · exact ⟨(fun h => nomatch h), (fun h => nomatch h)⟩

/-- C55: a validator always answers, provided that the name service answers as it should. -/
theorem C55_answers (env : Validator.Env) (data : List Str) (v : Parser) (n : Nat) (h : Validator.create env data = .ok (v, n))
    (calls : List (ParseEnv × Str)) (penv : ParseEnv) (value : Str) (hs : SafeAnswers penv) (hm : SomeAnswer penv) :
    ∃ b m, (Validator.validate penv value (Validator.validateAll calls v)).2 = .ok (b, m) := by
  obtain ⟨h1, h2, _⟩ := created_rest h
  obtain ⟨l, hl⟩ := C67_answers_partial penv value v ⟨fun _ => hs, fun _ => .inl h2, fun _ _ => hm⟩ (by rw [h1]; rfl)
  rw [validate_after h]
  revert hl
  rcases Parser.parse penv value v with ⟨q, a | e | w⟩
  · exact fun _ => ⟨_, _, rfl⟩
  · exact fun h => nomatch h
  · exact fun h => nomatch h

/-! ## C69 -/

/-- C69: a validator allows what its options say; where an option is given several times the last one counts, and without any
option about it an address, lookups and a port are allowed. -/
theorem C69_allowed_iff (env : Validator.Env) (data : List Str) (v : Parser) (n : Nat) (h : Validator.create env data = .ok (v, n))
    (f : Allow) : v.config.flags f = true ↔ allowedByOptions env.split data f := by
  obtain ⟨_, h1⟩ := Validator.options_flags env data _ v n rfl (created h)
  rw [h1 f, allowedByOptions]
  have hfirst : Parser.create.config.flags f = true ↔ allowedAtFirst f := by
    unfold allowedAtFirst
    cases f <;> decide
  cases hg : governedBy f with
  | none =>
    dsimp only
    rw [hfirst]
    unfold allowedAtFirst
    cases f <;> simp only [governedBy, reduceCtorEq] at hg <;> decide
  | some name =>
    dsimp only
    cases lastValues env.split name data with
    | none => exact hfirst
    | some values => exact @decide_eq_true_iff _ (_)

/-- C69: the construction always succeeds; it logs nothing exactly when all the options are as documented. -/
theorem C69_created (env : Validator.Env) (data : List Str) (hs : SafeAnswers env.parse) (hn : ReadsNumbers env.parse) :
    ∃ v n, Validator.create env data = .ok (v, n) ∧ (n = 0 ↔ ∀ o ∈ data, o = [] ∨ GoodOption env.parse env.split o) := by
  obtain ⟨v, n, h1, h2⟩ := Validator.logs_options hs hn data Parser.create rfl
  exact ⟨v, n, by rw [Validator.create, h1], h2⟩

/-! ## C70 -/

/-- C70, first part of the statement: with `address=no` a text with an address is not valid. -/
def C70_no_claim : Prop :=
  ∀ (env : Validator.Env) (data : List Str) (v : Parser) (n : Nat), Validator.create env data = .ok (v, n) →
    lastValues env.split "address".toList data = some ["no".toList] →
    ∀ (penv : ParseEnv) (b : Bytes4) (m : Option Str), (Validator.validate penv (ntop4 b) v).2 ≠ .ok (true, m)

/-- C70, second part of the statement: where an address is required the default address will do. -/
def C70_required_claim : Prop :=
  ∀ (env : Validator.Env) (data : List Str) (v : Parser) (n : Nat), Validator.create env data = .ok (v, n) →
    allowedByOptions env.split data .requiredAddress → ¬ allowedByOptions env.split data .addressLookup →
    allowedByOptions env.split data .port → ¬ allowedByOptions env.split data .requiredPort →
    (∃ b : Bytes4, v.config.defaultAddress4 = ntop4 b) →
    ∀ penv : ParseEnv, ∃ m, (Validator.validate penv [] v).2 = .ok (true, m)

/-- The words of a text, for the examples. -/
def sampleWords (s : Str) : List Str :=
  (s.foldr (fun c (r : List Str) => if c = ' ' then [] :: r else match r with | [] => [[c]] | w :: l => (c :: w) :: l) [[]]).filter (· ≠ [])

/-- An environment for the examples: the name service knows the numeric addresses only. -/
def validatorEnv : Validator.Env where
  parse := { numericEnv with getaddrinfo := fun host service numeric _ => numericEnv.getaddrinfo host service numeric 6 }
  db := sampleDb
  split := sampleWords

/-- The validator which the options give, for the examples. -/
def sampleValidator (data : List Str) : Parser :=
  match Validator.create validatorEnv data with
  | .ok (v, _) => v
  | _ => Parser.create

/-- The number of messages logged. -/
def sampleCount (data : List Str) : Option Nat :=
  match Validator.create validatorEnv data with
  | .ok (_, n) => some n
  | _ => none

theorem sampleValidator_created {data : List Str} {n : Nat} (h : sampleCount data = some n) :
    Validator.create validatorEnv data = .ok (sampleValidator data, n) := by
  unfold sampleCount at h
  unfold sampleValidator
  revert h
  rcases Validator.create validatorEnv data with ⟨v, m⟩ | e | w
  · intro h
    rw [Option.some.inj h]
  · exact fun h => nomatch h
  · exact fun h => nomatch h

-- The hypotheses of C55 and C69 are met.
theorem validatorEnv_safe : SafeAnswers validatorEnv.parse ∧ SomeAnswer validatorEnv.parse ∧ ReadsNumbers validatorEnv.parse := by
  refine ⟨?_, ?_, fun n _ => sampleConvert_dec n⟩
  · intro node service protocol l _ h x hx
    change (match pton4 node with
      | some b => GaiAnswer.list [.inet sizeofIn 6 { family := AF_INET, port := 0, addr := b, zero := Vector.replicate 8 0 }]
      | none =>
        match pton6 node with
        | some b => .list [.inet6 sizeofIn6 6 { family := AF_INET6, port := 0, flowinfo := 0, scope := 0, addr := b }]
        | none => .error (-2) 0) = .list l at h
    split at h
    · cases h
      rw [List.mem_singleton.1 hx]
      exact fun _ => ⟨rfl, .inr (.inr (.inl rfl))⟩
    · split at h
      · cases h
        rw [List.mem_singleton.1 hx]
        exact fun _ => ⟨rfl, .inr (.inr (.inl rfl))⟩
      · cases h
  · intro node service protocol h
    change (match pton4 node with
      | some b => GaiAnswer.list [.inet sizeofIn 6 { family := AF_INET, port := 0, addr := b, zero := Vector.replicate 8 0 }]
      | none =>
        match pton6 node with
        | some b => .list [.inet6 sizeofIn6 6 { family := AF_INET6, port := 0, flowinfo := 0, scope := 0, addr := b }]
        | none => .error (-2) 0) = .list [] at h
    split at h
    · cases h
    · split at h <;> cases h

/-- Options for the examples. -/
def sampleOptions : List Str := ["address=required commas".toList, "mask".toList, "defaults=10.0.0.1:80/8 [::1]".toList, "port=no".toList,
  "port=yes".toList]

example : sampleCount sampleOptions = some 0 ∧ sampleCount ["adress=yes".toList, "port=maybe".toList, "default=here".toList] = some 3 := by
  decide +kernel

example : (Validator.validate sampleEnv "10.0.0.1:22,[::2]/64".toList (sampleValidator sampleOptions)).2 = .ok (true, none) := by
  decide +kernel

example : (Validator.validate sampleEnv "10.0.0.1/99".toList (sampleValidator sampleOptions)).2
    = .ok (false, some "Unsupported mask size (99, expected 32 at the most for an IPv4).\n".toList) := by
  decide +kernel

theorem C70_no_claim_fails : ¬ C70_no_claim := by
  intro h
  exact h validatorEnv ["address=no".toList] (sampleValidator ["address=no".toList]) 0 (sampleValidator_created (by decide +kernel))
    (by decide +kernel) sampleEnv #v[10, 0, 0, 1] none (by decide +kernel)

/-- The options of the second example. -/
def requiredOptions : List Str := ["default=10.0.0.1".toList, "address=required".toList]

theorem C70_required_claim_fails : ¬ C70_required_claim := by
  intro h
  obtain ⟨m, hm⟩ := h validatorEnv requiredOptions (sampleValidator requiredOptions) 0 (sampleValidator_created (by decide +kernel))
    ⟨by decide +kernel, by decide +kernel⟩ (fun h => absurd h.2 (by decide +kernel)) (.inr (.inr rfl))
    (fun h => by rcases h with h | h | h <;> cases h) ⟨#v[10, 0, 0, 1], by decide +kernel⟩ sampleEnv
  have : (Validator.validate sampleEnv [] (sampleValidator requiredOptions)).2
      = .ok (false, some "Required address is missing.\n".toList) := by decide +kernel
  rw [this] at hm
  cases hm

/-- C70, what holds of the first part: `ALLOW_ADDRESS`, which is what `address=no` clears, has no effect on the parser. -/
theorem C70_address_ignored_partial (env : ParseEnv) (inp : Str) (p : Parser) (b : Bool) :
    (Parser.parse env inp (Parser.setAllow 0 b p).1).2 = (Parser.parse env inp p).2
      ∧ (Parser.parse env inp (Parser.setAllow 0 b p).1).1.errorMessages = (Parser.parse env inp p).1.errorMessages := by
  have hq : (Parser.setAllow 0 b p).1 = { p with config := Parser.setFlag p.config .address b } := by cases b <;> rfl
  rw [hq]
  have hrel := Parser.rel_parseUnsorted_text (c := p.config) (c' := Parser.setFlag p.config .address b) rfl rfl rfl
    ⟨⟨⟨rfl, rfl, rfl, rfl, rfl, rfl, rfl, rfl, rfl⟩, rfl⟩, rfl, rfl, rfl, rfl⟩ env inp p { p with config := Parser.setFlag p.config .address b }
    rfl rfl rfl rfl
  obtain ⟨h1, h2, _⟩ := hrel
  rw [parse_eq, parse_eq, PM.bind_def, PM.bind_def]
  revert h1 h2
  rcases Parser.parseUnsorted env inp p with ⟨q, a | e | w⟩
  all_goals rcases Parser.parseUnsorted env inp { p with config := Parser.setFlag p.config .address b } with ⟨q', a' | e' | w'⟩
  all_goals
    intro h1 h2
    cases h1
    try exact ⟨rfl, h2.symm⟩

/-- C70, what holds of the second part: a required address has to be written, whatever the default addresses. -/
theorem C70_required_partial (env : Validator.Env) (data : List Str) (v : Parser) (n : Nat)
    (h : Validator.create env data = .ok (v, n)) (hr : allowedByOptions env.split data .requiredAddress)
    (hp : ¬ allowedByOptions env.split data .requiredPort) (hc : ¬ allowedByOptions env.split data .multiAddressesCommas)
    (hs : ¬ allowedByOptions env.split data .multiAddressesSpaces) (hn : ¬ allowedByOptions env.split data .multiAddressesNewlines)
    (penv : ParseEnv) : (Validator.validate penv [] v).2 = .ok (false, some "Required address is missing.\n".toList) := by
  have flag : ∀ f, ¬ allowedByOptions env.split data f → v.config.flags f = false := fun f hf =>
    Bool.eq_false_iff.2 fun h' => hf ((C69_allowed_iff env data v n h f).1 h')
  have hr' := (C69_allowed_iff env data v n h _).2 hr
  obtain ⟨h1, h2, h3, h4⟩ := created_rest h
  have key : Parser.parse penv [] v = ({ v with error := "Required address is missing.\n".toList, errorCount := 1 }, .ok []) := by
    have hport : ∀ b, Parser.parseAddressPort penv [] [] [] b v
        = ({ v with error := "Required address is missing.\n".toList, errorCount := 1 }, .ok []) := by
      intro b
      simp only [Parser.parseAddressPort, PM.config_bind, flag _ hp, hr']
      rw [if_neg (by simp), if_pos (by simp)]
      show (({ v with error := v.error ++ _ ++ _, errorCount := v.errorCount + 1 } : Parser), _) = _
      rw [h3, h4]
      rfl
    have hrange : ∀ b, Parser.parseAddressRangePort penv [] [] [] b v
        = ({ v with error := "Required address is missing.\n".toList, errorCount := 1 }, .ok []) := by
      intro b
      simp only [Parser.parseAddressRangePort, PM.config_bind, Parser.splitFirst, ite_self]
      exact hport b
    have h46 : ∃ b, Parser.parseAddress penv [] [] [] v
        = ({ v with error := "Required address is missing.\n".toList, errorCount := 1 }, .ok (b, [])) := by
      simp only [Parser.parseAddress, PM.config_bind, List.count_nil, List.head?_nil, true_or, if_true, ne_eq, not_true, if_false]
      rw [if_neg (by omega)]
      split
      · refine ⟨false, ?_⟩
        rw [PM.bind_def, Parser.parseAddress6, PM.config_bind, if_neg (by simp), if_neg (by omega), hrange]
        rfl
      · refine ⟨true, ?_⟩
        have : Parser.parseAddress4 penv [] [] v = Parser.parseAddressRangePort penv [] [] [] false v := rfl
        rw [PM.bind_def, this, hrange]
        rfl
    obtain ⟨b, hb⟩ := h46
    have hcidr : Parser.parseCidr penv [] [] v
        = ({ v with error := "Required address is missing.\n".toList, errorCount := 1 }, .ok []) := by
      simp only [Parser.parseCidr, PM.config_bind]
      split
      · show (Parser.parseAddress penv [] [] [] >>= fun x => _) v = _
        rw [PM.bind_def, hb]
        dsimp only
        show (if v.errorCount = (1 : Int) then Pure.pure [] else Pure.pure [] : PM (List Range)) _ = _
        rw [ite_self]
        rfl
      · show (Parser.parseAddress penv [] [] [] >>= fun x => _) v = _
        rw [PM.bind_def, hb]
        rfl
    have hun : Parser.parseUnsorted penv [] v
        = ({ v with error := "Required address is missing.\n".toList, errorCount := 1 }, .ok []) := by
      have hsep : Parser.separators v.config = [] := by simp [Parser.separators, flag _ hc, flag _ hs, flag _ hn]
      have hend : Parser.singleEnd v.config [] = 0 := by
        unfold Parser.singleEnd
        split <;> rfl
      rw [Parser.parseUnsorted, PM.config_bind, if_pos hsep, Parser.parseSingle, PM.config_bind, hend]
      exact hcidr
    rw [parse_eq, h1, PM.bind_def, hun]
    rfl
  have := validate_after h [] penv []
  rw [key] at this
  exact congrArg Prod.snd this

end Verif
