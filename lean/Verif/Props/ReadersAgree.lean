import Verif.Props.ParserCount
import Verif.Props.KnownNames

/-! C158: `string_to_addr()` and the address validator agree (addr_parser.cpp:2314-2390, validator_address.cpp:291-312). What
`string_to_addr()` converts is valid for a validator with the same settings, and what such a validator refuses is not
converted, although `string_to_addr()` itself looks at the number of ranges only and never at the errors. -/

namespace Verif

open Spec

/-- The answers of the name service can be relied upon, or masks are read, of which every error drops the entry. -/
def SureAnswers (env : ParseEnv) (mask : Bool) : Prop := mask = true ∨ GoodAnswers env

/-! ### Lemmas -/

section
variable {env : ParseEnv} {d : Str} {port : Int} {proto : Str} {mask : Bool}

theorem own_single {c : Config} (h : OwnConfig env port proto mask c) {p : Parser} (hp : p.config = c) (a : Str) : SingleEntry p a := by
  refine .inl ?_
  unfold ListMode
  rw [hp, h.flags]
  simp

/-- An entry with errors gives nothing. -/
theorem own_errors {c : Config} (h : OwnConfig env port proto mask c) {p : Parser} (hp : p.config = c) (a : Str) (hs : SureAnswers env mask)
    {l : List Range} (hl : (Parser.parse env a p).2 = .ok l) (hne : newErrors env a p ≠ 0) : l = [] := by
  rcases hs with hm | hg
  · refine C46_mask_error env a p l (own_single h hp a) ?_ hl hne
    rw [hp, h.flags]
    simpa using hm
  · rcases C46_entry env a p l (own_single h hp a) (fun _ => hg) (by rw [hp, h.sort]; decide) hl with h1 | h1
    · exact absurd h1.1 hne
    · exact h1.2

theorem pickOne_nil (proto : Str) (q : Parser) : (pickOne proto [] q).2 = .throw .invalidArgument := by
  rw [pickOne]
  simp only [List.filter_nil, ite_self]
  rfl

end

/-- `parse()` gives the same result whatever the errors before, and adds the same number of errors. -/
theorem parse_fresh (env : ParseEnv) (a : Str) {p q : Parser} (h : p.config = q.config) :
    (Parser.parse env a p).2 = (Parser.parse env a q).2 ∧ newErrors env a p = newErrors env a q := by
  obtain ⟨errs, r, hl⟩ := Parser.logging_parse env q.config a
  unfold newErrors Parser.getErrorCount
  rw [hl p h, hl q rfl]
  refine ⟨rfl, ?_⟩
  show p.errorCount + _ - p.errorCount = q.errorCount + _ - q.errorCount
  omega

theorem validate_errors (env : ParseEnv) (a : Str) (p : Parser) {l : List Range} (hl : (Parser.parse env a p).2 = .ok l) :
    ((Validator.validate env a p).2 = .ok (true, none) ↔ newErrors env a p = 0)
      ∧ ((∃ m, (Validator.validate env a p).2 = .ok (false, m)) ↔ newErrors env a p ≠ 0) := by
  rw [validate_eq]
  obtain ⟨errs, r, h⟩ := Parser.logging_parse env p.config a
  have h0 := h { p with error := [], errorCount := 0 } rfl
  unfold newErrors Parser.getErrorCount
  rw [h p rfl] at hl ⊢
  rw [h0]
  cases hl
  dsimp only
  have e2 : (Parser.emitAll errs p).errorCount - p.errorCount = errs.length := by
    show p.errorCount + _ - p.errorCount = _
    omega
  rw [e2]
  cases errs with
  | nil =>
    rw [if_neg (by simp [Parser.hasErrors, Parser.emitAll])]
    simp
  | cons e es =>
    rw [if_pos (by simp [Parser.hasErrors, Parser.emitAll])]
    refine ⟨⟨fun h => (nomatch h), fun h => ?_⟩, fun _ h => ?_, fun _ => ⟨_, rfl⟩⟩
    · rw [List.length_cons] at h
      omega
    · rw [List.length_cons] at h
      omega

/-! ### C158 -/

/-- C158: what `string_to_addr()` converts is valid for a validator with the same settings. Missing: name services with answers which cannot
be used, when masks are not read. -/
theorem C158_valid_partial (env : ParseEnv) (a d : Str) (port : Int) (proto : Str) (mask : Bool) (x : Addr) (p : Parser) (hs : SureAnswers env mask)
    (hp : p.config = (ownParser env d port proto mask).config) (h : Parser.stringToAddr env a d port proto mask = .ok x) :
    (Validator.validate env a p).2 = .ok (true, none) := by
  rcases stringToAddr_cases (env := env) (d := d) (port := port) (proto := proto) (mask := mask) a with ⟨_, e⟩ | ⟨_, e, o⟩
  · rw [e] at h
    cases h
  · rw [e, PM.bind_def] at h
    obtain ⟨f1, f2⟩ := parse_fresh env a hp
    rcases hr : Parser.parse env a (ownParser env d port proto mask) with ⟨q, r⟩
    rw [hr] at h f1
    cases r with
    | throw ex => cases h
    | ub w => cases h
    | ok l =>
      refine (validate_errors env a p f1).1.2 (Classical.byContradiction fun hne => ?_)
      have := own_errors o hp a hs f1 hne
      subst this
      have h' : (pickOne proto [] q).2 = .ok x := h
      rw [pickOne_nil] at h'
      cases h'

/-- C158: what such a validator refuses is not converted. -/
theorem C158_invalid_partial (env : ParseEnv) (a d : Str) (port : Int) (proto : Str) (mask : Bool) (m : Option Str) (p : Parser) (hs : SureAnswers env mask)
    (hp : p.config = (ownParser env d port proto mask).config) (h : (Validator.validate env a p).2 = .ok (false, m)) :
    Parser.stringToAddr env a d port proto mask = .throw .invalidArgument := by
  rcases stringToAddr_cases (env := env) (d := d) (port := port) (proto := proto) (mask := mask) a with ⟨_, e⟩ | ⟨_, e, o⟩
  · exact e
  · obtain ⟨f1, f2⟩ := parse_fresh env a hp
    have hv := h
    rw [validate_eq] at hv
    obtain ⟨g1, _⟩ := parse_fresh env a (p := { p with error := [], errorCount := 0 }) (q := p) rfl
    rcases hr : Parser.parse env a { p with error := [], errorCount := 0 } with ⟨q, r⟩
    rw [hr] at hv g1
    cases r with
    | throw ex => cases hv
    | ub w => cases hv
    | ok l =>
      have hl : (Parser.parse env a p).2 = .ok l := g1.symm
      have hne := (validate_errors env a p hl).2.1 ⟨m, h⟩
      have := own_errors o hp a hs hl hne
      subst this
      rw [e, PM.bind_def]
      rw [hl] at f1
      rcases hr' : Parser.parse env a (ownParser env d port proto mask) with ⟨q', r'⟩
      rw [hr'] at f1
      cases f1
      exact pickOne_nil proto q'

/-- C158: when the validator accepts the text, `string_to_addr()` fails only because there is not exactly one address: with a protocol the
text gives two ranges or more, without one it gives several and not exactly one of them is for TCP. -/
theorem C158_several (env : ParseEnv) (a d : Str) (port : Int) (proto : Str) (mask : Bool) (p : Parser)
    (hacc : Acceptable env d port proto) (hp : p.config = (ownParser env d port proto mask).config)
    (h : (Validator.validate env a p).2 = .ok (true, none)) :
    ∃ l, (Parser.parse env a p).2 = .ok l
      ∧ ((∃ x, Parser.stringToAddr env a d port proto mask = .ok x)
        ↔ ∃ r, r.hasFrom = true ∧ r.hasTo = false
          ∧ (l = [r] ∨ (proto = [] ∧ l.length ≠ 1 ∧ l.filter (fun r => !(r.hasFrom && r.lo.protocol != IPPROTO_TCP)) = [r]))) := by
  rcases stringToAddr_cases (env := env) (d := d) (port := port) (proto := proto) (mask := mask) a with ⟨hn, _⟩ | ⟨_, e, o⟩
  · exact absurd hacc hn
  · obtain ⟨f1, f2⟩ := parse_fresh env a hp
    have hv := h
    rw [validate_eq] at hv
    obtain ⟨g1, _⟩ := parse_fresh env a (p := { p with error := [], errorCount := 0 }) (q := p) rfl
    rcases hr : Parser.parse env a { p with error := [], errorCount := 0 } with ⟨q, r⟩
    rw [hr] at hv g1
    cases r with
    | throw ex => cases hv
    | ub w => cases hv
    | ok l =>
      have hl : (Parser.parse env a p).2 = .ok l := g1.symm
      refine ⟨l, hl, ?_⟩
      rw [hl] at f1
      rw [e, PM.bind_def]
      rcases hr' : Parser.parse env a (ownParser env d port proto mask) with ⟨q', r'⟩
      rw [hr'] at f1
      cases f1
      show (∃ x, (pickOne proto l q').2 = .ok x) ↔ _
      have hpick (r : Range) : (∃ x, ((if r.hasTo || r.isRange then PM.throw .invalidArgument
          else if !r.hasFrom then PM.throw .invalidArgument else return r.lo : PM Addr) q').2 = .ok x) ↔ r.hasFrom = true ∧ r.hasTo = false := by
        have hir : r.isRange = (r.hasFrom && r.hasTo) := rfl
        rw [hir]
        cases r.hasFrom <;> cases r.hasTo <;> simp [PM.throw] <;> exact ⟨_, rfl⟩
      rw [pickOne]
      have hk : ∃ k, (if l.length ≠ 1 ∧ proto = [] then l.filter fun r => !(r.hasFrom && r.lo.protocol != IPPROTO_TCP) else l) = k := ⟨_, rfl⟩
      obtain ⟨k, hk⟩ := hk
      rw [hk]
      have hcases (r : Range) : (l = [r] ∨ (proto = [] ∧ l.length ≠ 1 ∧ l.filter (fun r => !(r.hasFrom && r.lo.protocol != IPPROTO_TCP)) = [r]))
          ↔ k = [r] := by
        rw [← hk]
        split
        · rename_i hc
          refine ⟨?_, fun h => .inr ⟨hc.2, hc.1, h⟩⟩
          rintro (h | ⟨_, _, h⟩)
          · rw [h] at hc
            exact absurd rfl hc.1
          · exact h
        · rename_i hc
          refine ⟨?_, .inl⟩
          rintro (h | ⟨h1, h2, _⟩)
          · exact h
          · exact absurd ⟨h2, h1⟩ hc
      simp only [hcases]
      match k with
      | [] => exact ⟨fun ⟨x, hx⟩ => (by cases hx), fun ⟨r, _, _, hx⟩ => (by cases hx)⟩
      | [r] =>
        refine (hpick r).trans ⟨fun ⟨k1, k2⟩ => ⟨r, k1, k2, rfl⟩, ?_⟩
        rintro ⟨r', k1, k2, hx⟩
        cases hx
        exact ⟨k1, k2⟩
      | r :: r' :: k => exact ⟨fun ⟨x, hx⟩ => (by cases hx), fun ⟨r, _, _, hx⟩ => (by cases hx)⟩

/-- C155: what `string_to_addr()` converts is converted to the same address when the name service knows more names. -/
theorem C155_string_to_addr (env1 env2 : ParseEnv) (a d : Str) (port : Int) (proto : Str) (mask : Bool) (x : Addr) (hs : SureAnswers env1 mask)
    (hp : env1.getprotobyname = env2.getprotobyname) (h : KnownBy env1 env2 fun node _ numeric _ => numeric = false ∧ NameAsked a d node)
    (hx : Parser.stringToAddr env1 a d port proto mask = .ok x) : Parser.stringToAddr env2 a d port proto mask = .ok x := by
  have hown := own_same hp d port proto mask
  have hacc : Acceptable env1 d port proto → Acceptable env2 d port proto :=
    fun h => ⟨h.address, h.port, fun h' => by rw [← hp]; exact h.protocol h'⟩
  have hv := C158_valid_partial env1 a d port proto mask x _ hs rfl hx
  rcases stringToAddr_cases (env := env1) (d := d) (port := port) (proto := proto) (mask := mask) a with ⟨h1, e1⟩ | ⟨h1, e1, o1⟩
  · rw [e1] at hx
    cases hx
  rcases stringToAddr_cases (env := env2) (d := d) (port := port) (proto := proto) (mask := mask) a with ⟨h2, e2⟩ | ⟨h2, e2, o2⟩
  · exact absurd (hacc h1) h2
  rw [e2, ← hx, e1, ← hown, PM.bind_def, PM.bind_def]
  rw [e1, PM.bind_def] at hx
  rcases hr : Parser.parse env1 a (ownParser env1 d port proto mask) with ⟨q, r⟩
  rw [hr] at hx
  cases r with
  | throw ex => cases hx
  | ub w => cases hx
  | ok l =>
    have h0 := (validate_errors env1 a _ (by rw [hr])).1.1 hv
    have hk := C155_more_names env1 env2 (ownParser env1 d port proto mask) a
      ⟨h.convert, fun node service numeric protocol hq => h.answers node service numeric protocol ?_⟩
      (by unfold newErrors at h0; omega)
    · rw [hk, hr]
    · rw [MayAsk] at hq
      split at hq
      · have := hq.1
        rw [o1.flags] at this
        cases this
      · rename_i hn
        obtain ⟨t, ht, hnode⟩ := hq.2.1
        refine ⟨Bool.eq_false_iff.2 hn, t, hnode, ht.imp id fun h => ?_⟩
        have h' := h.2
        rw [hown] at h'
        exact own_defaults h2 t h'

/-! ### Cases -/

/-- A name service of which an answer about `gate` is not an address of the Internet. -/
def mixedEnv : ParseEnv :=
  { hostsEnv with
    getaddrinfo := fun node service numeric hint =>
      if node = "gate".toList then
        .list [.other 1, .inet sizeofIn 6 { family := AF_INET, port := 0x5000, addr := #v[10, 0, 0, 1], zero := Vector.replicate 8 0 }]
      else hostsEnv.getaddrinfo node service numeric hint }

/-- The claim for all name services. -/
def C158_claim : Prop :=
  ∀ (env : ParseEnv) (a d : Str) (port : Int) (proto : Str) (mask : Bool) (x : Addr) (p : Parser),
    p.config = (ownParser env d port proto mask).config → Parser.stringToAddr env a d port proto mask = .ok x →
      (Validator.validate env a p).2 = .ok (true, none)

/-- C158: `string_to_addr()` does not look at the errors: an answer which is not usable next to one which is makes the text invalid for the
validator, not for `string_to_addr()`. -/
theorem C158_claim_fails : ¬ C158_claim := by
  intro h
  have h1 : ∃ x, Parser.stringToAddr mixedEnv "gate:80".toList [] (-1) "tcp".toList false = .ok x := by
    have : (match Parser.stringToAddr mixedEnv "gate:80".toList [] (-1) "tcp".toList false with | .ok _ => true | _ => false) = true := by
      decide +kernel
    revert this
    cases Parser.stringToAddr mixedEnv "gate:80".toList [] (-1) "tcp".toList false with
    | ok x => exact fun _ => ⟨x, rfl⟩
    | throw e => exact fun h => nomatch h
    | ub w => exact fun h => nomatch h
  obtain ⟨x, hx⟩ := h1
  have h2 := h mixedEnv _ _ _ _ _ x (ownParser mixedEnv [] (-1) "tcp".toList false) rfl hx
  revert h2
  decide +kernel

-- C158_valid_partial and C158_invalid_partial, on names and addresses, some with a mask.
example : (∃ x, Parser.stringToAddr hostsEnv "gate/24".toList [] 80 "tcp".toList true = .ok x)
    ∧ (Validator.validate hostsEnv "gate/24".toList (ownParser hostsEnv [] 80 "tcp".toList true)).2 = .ok (true, none)
    ∧ Parser.stringToAddr hostsEnv "gate/x".toList [] 80 "tcp".toList true = .throw .invalidArgument := by
  have h1 : ∃ x, Parser.stringToAddr hostsEnv "gate/24".toList [] 80 "tcp".toList true = .ok x := by
    have : (match Parser.stringToAddr hostsEnv "gate/24".toList [] 80 "tcp".toList true with | .ok _ => true | _ => false) = true := by
      decide +kernel
    revert this
    cases Parser.stringToAddr hostsEnv "gate/24".toList [] 80 "tcp".toList true with
    | ok x => exact fun _ => ⟨x, rfl⟩
    | throw e => exact fun h => nomatch h
    | ub w => exact fun h => nomatch h
  obtain ⟨x, hx⟩ := h1
  refine ⟨⟨x, hx⟩, C158_valid_partial _ _ _ _ _ _ x _ (.inl rfl) rfl hx, ?_⟩
  have h2 : ∃ m, (Validator.validate hostsEnv "gate/x".toList (ownParser hostsEnv [] 80 "tcp".toList true)).2 = .ok (false, m) := by
    have : (match (Validator.validate hostsEnv "gate/x".toList (ownParser hostsEnv [] 80 "tcp".toList true)).2 with | .ok (false, _) => true | _ => false) = true := by
      decide +kernel
    revert this
    cases (Validator.validate hostsEnv "gate/x".toList (ownParser hostsEnv [] 80 "tcp".toList true)).2 with
    | ok y =>
      obtain ⟨b, m⟩ := y
      cases b with
      | false => exact fun _ => ⟨m, rfl⟩
      | true => exact fun h => nomatch h
    | throw e => exact fun h => nomatch h
    | ub w => exact fun h => nomatch h
  obtain ⟨m, hm⟩ := h2
  exact C158_invalid_partial _ _ _ _ _ _ m _ (.inl rfl) rfl hm

end Verif
