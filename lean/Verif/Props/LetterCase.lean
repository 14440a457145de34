import Verif.Lemmas.ParserCase
import Verif.Props.StringToAddr
import Verif.Props.Validator
import Verif.Props.ListLanguage

/-!
# The case of letters does not matter (C137)
-/

namespace Verif

open Spec Parser

/-! ## Specification -/

/-- The addresses are the same but for their names. -/
structure Spec.SameButName (a b : Addr) : Prop where
  same : b = { a with hostname := b.hostname }

/-- The ranges have the same bounds, but for the names of these. -/
structure Spec.SameBounds (r r' : Range) : Prop where
  hasFrom : r'.hasFrom = r.hasFrom
  hasTo : r'.hasTo = r.hasTo
  lo : SameButName r.lo r'.lo
  hi : SameButName r.hi r'.hi

/-- The lists have the same ranges at the same places. -/
def Spec.SameLists (l l' : List Range) : Prop := List.Forall₂ SameBounds l l'

/-- The calls end in the same way, with values related by `R` if they return. -/
inductive Spec.SameEnd {α : Type} (R : α → α → Prop) : Res α → Res α → Prop
  | ok {a b : α} (h : R a b) : SameEnd R (.ok a) (.ok b)
  | throw (e : Exc) : SameEnd R (.throw e) (.throw e)
  | ub (w : UB) : SameEnd R (.ub w) (.ub w)

/-! ## Lemmas -/

theorem sameButName_iff {a b : Addr} : SameButName a b ↔ SameAddr a b :=
  ⟨fun h => by rw [h.same]; rfl, fun h => ⟨sameAddr_cases h⟩⟩

theorem sameBounds_of {a b : Range} (h : SameRange a b) : SameBounds a b := by
  have e := sameRange_cases h
  obtain ⟨h1, h2, -⟩ := same_bounds h
  exact ⟨by rw [e], by rw [e], sameButName_iff.2 h1, sameButName_iff.2 h2⟩

theorem sameLists_of {l l' : List Range} (h : SameRanges l l') : SameLists l l' := by
  induction l generalizing l' with
  | nil =>
    rcases sameRanges_cases h with ⟨-, rfl⟩ | ⟨r, r', m, m', e, -⟩
    · exact .nil
    · cases e
  | cons x l ih =>
    rcases sameRanges_cases h with ⟨e, -⟩ | ⟨r, r', m, m', e, rfl, h1, h2⟩
    · cases e
    · cases e
      exact .cons (sameBounds_of h1) (ih h2)

theorem sameEnd_of {α : Type} {R S : α → α → Prop} (hRS : ∀ a b, R a b → S a b) {r r' : Res α} (h : ResRel R r r') : SameEnd S r r' := by
  cases r <;> cases r' <;> first | exact .ok (hRS _ _ h) | exact h.elim | (cases h; constructor)

theorem alike_pickOne (proto : Str) {c : Config} {l l' : List Range} (h : SameRanges l l') :
    Alike c SameAddr (pickOne proto l) (pickOne proto l') := by
  have hfil : SameRanges (l.filter fun r => !(r.hasFrom && r.lo.protocol != IPPROTO_TCP))
      (l'.filter fun r => !(r.hasFrom && r.lo.protocol != IPPROTO_TCP)) := by
    induction l generalizing l' with
    | nil =>
      rcases sameRanges_cases h with ⟨-, rfl⟩ | ⟨r, r', m, m', e, -⟩
      · rfl
      · cases e
    | cons x l ih =>
      rcases sameRanges_cases h with ⟨e, -⟩ | ⟨r, r', m, m', e, rfl, h1, h2⟩
      · cases e
      · cases e
        have e1 : (!(r'.hasFrom && r'.lo.protocol != IPPROTO_TCP)) = !(x.hasFrom && x.lo.protocol != IPPROTO_TCP) := by
          rw [sameRange_cases h1]
        rw [List.filter_cons, List.filter_cons, e1]
        split
        · exact sameRanges_cons h1 (ih h2)
        · exact ih h2
  have hlen : l'.length = l.length := by rw [← List.length_map (f := unnamedRange), ← h, List.length_map]
  have hboth : SameRanges (if l.length ≠ 1 ∧ proto = [] then l.filter fun r => !(r.hasFrom && r.lo.protocol != IPPROTO_TCP) else l)
      (if l'.length ≠ 1 ∧ proto = [] then l'.filter fun r => !(r.hasFrom && r.lo.protocol != IPPROTO_TCP) else l') := by
    rw [hlen]
    split
    · exact hfil
    · exact h
  unfold pickOne
  revert hboth
  generalize (if l.length ≠ 1 ∧ proto = [] then l.filter fun r => !(r.hasFrom && r.lo.protocol != IPPROTO_TCP) else l) = m
  generalize (if l'.length ≠ 1 ∧ proto = [] then l'.filter fun r => !(r.hasFrom && r.lo.protocol != IPPROTO_TCP) else l') = m'
  intro hm
  rcases sameRanges_cases hm with ⟨rfl, rfl⟩ | ⟨r, r', n, n', rfl, rfl, h1, h2⟩
  · exact alike_throw _
  · rcases sameRanges_cases h2 with ⟨rfl, rfl⟩ | ⟨_, _, _, _, rfl, rfl, -, -⟩
    · obtain ⟨b1, -, -, -, -, b6, -, -⟩ := same_bounds h1
      have bt : r'.hasTo = r.hasTo := by rw [sameRange_cases h1]
      have bf : r'.hasFrom = r.hasFrom := by rw [sameRange_cases h1]
      dsimp only
      rw [b6, bt, bf]
      by_cases q1 : (r.hasTo || r.isRange) = true
      · rw [if_pos q1, if_pos q1]
        exact alike_throw _
      · rw [if_neg q1, if_neg q1]
        by_cases q2 : (!r.hasFrom) = true
        · rw [if_pos q2, if_pos q2]
          exact alike_throw _
        · rw [if_neg q2, if_neg q2]
          exact alike_pure b1
    · exact alike_throw _

theorem hasErrors_eq {env : ParseEnv} {s t : Str} {p : Parser}
    (h : (Parser.parse env s p).1.errorCount = (Parser.parse env t p).1.errorCount) :
    (Parser.parse env s p).1.hasErrors = (Parser.parse env t p).1.hasErrors := by
  obtain ⟨e1, r1, h1⟩ := logging_parse env p.config s
  obtain ⟨e2, r2, h2⟩ := logging_parse env p.config t
  rw [h1 p rfl, h2 p rfl] at h ⊢
  have hlen : e1.length = e2.length := by
    have h : p.errorCount + (e1.length : Int) = p.errorCount + (e2.length : Int) := h
    omega
  show (!(p.error ++ e1.flatMap (· ++ ['\n'])).isEmpty) = !(p.error ++ e2.flatMap (· ++ ['\n'])).isEmpty
  cases e1 with
  | nil => rw [List.length_eq_zero_iff.1 hlen.symm]
  | cons x e1 =>
    cases e2 with
    | nil => simp at hlen
    | cons y e2 =>
      have key : ∀ (u x : Str) (e : List Str), (u ++ (x :: e).flatMap (· ++ ['\n'])).isEmpty = false := by
        intro u x e
        rw [List.isEmpty_eq_false_iff]
        simp
      rw [key, key]

theorem same_matchAddr {r r' : Range} (h : SameRange r r') (a : Addr) : r'.matchAddr a = r.matchAddr a := by
  rw [sameRange_cases h]
  rfl

theorem same_match {l l' : List Range} (h : SameRanges l l') (a : Addr) : addressMatchRanges l a = addressMatchRanges l' a := by
  induction l generalizing l' with
  | nil =>
    rcases sameRanges_cases h with ⟨-, rfl⟩ | ⟨r, r', m, m', e, -⟩
    · rfl
    · cases e
  | cons x l ih =>
    rcases sameRanges_cases h with ⟨e, -⟩ | ⟨r, r', m, m', e, rfl, h1, h2⟩
    · cases e
    · cases e
      rw [addressMatchRanges, addressMatchRanges, same_matchAddr h1, ih h2]

/-! ## C137 -/

section
variable {env : ParseEnv} {s t : Str}

/-- C137: two texts which differ in the case of letters only are parsed alike, whatever the flags, the defaults and the order asked
for: the call ends in the same way, the ranges are the same but for the names kept with the addresses, and as many errors are
counted. -/
theorem C137_case (hb : CaseBlind env) (hs : SameLetters s t) (p : Parser) :
    SameEnd SameLists (Parser.parse env s p).2 (Parser.parse env t p).2
      ∧ (Parser.parse env s p).1.getErrorCount = (Parser.parse env t p).1.getErrorCount
      ∧ (Parser.parse env s p).1.hasErrors = (Parser.parse env t p).1.hasErrors := by
  obtain ⟨-, -, h3, h4⟩ := alike_parse hb hs p p rfl rfl rfl
  exact ⟨sameEnd_of (fun _ _ => sameLists_of) h4, h3, hasErrors_eq h3⟩

/-- C137 without lookups: all it takes is that the numbers of ports do not depend on letters; the name service does not matter. -/
theorem C137_numeric (hb : ∀ s t, SameLetters s t → env.convert s = env.convert t) (hs : SameLetters s t) (p : Parser)
    (hl : p.config.flags .addressLookup = false) (hm : p.config.flags .addressMask = false ∨ p.config.flags .mask = false) :
    SameEnd SameLists (Parser.parse env s p).2 (Parser.parse env t p).2
      ∧ (Parser.parse env s p).1.getErrorCount = (Parser.parse env t p).1.getErrorCount
      ∧ (Parser.parse env s p).1.hasErrors = (Parser.parse env t p).1.hasErrors := by
  obtain ⟨env', he, hb'⟩ : ∃ env', (∀ x, Parser.parse env x p = Parser.parse env' x p) ∧ CaseBlind env' :=
    ⟨{ env with getaddrinfo := fun _ _ _ _ => .error 0 0 }, fun x =>
      C39_no_name_service env { env with getaddrinfo := fun _ _ _ _ => .error 0 0 } rfl p x hl hm,
      hb, fun _ _ _ _ _ _ _ _ => rfl⟩
  rw [he s, he t]
  exact C137_case hb' hs p

/-- C137: the same addresses are found in the two lists. -/
theorem C137_match (hb : CaseBlind env) (hs : SameLetters s t) (p : Parser) {l l' : List Range}
    (h : (Parser.parse env s p).2 = .ok l) (h' : (Parser.parse env t p).2 = .ok l') (a : Addr) :
    addressMatchRanges l a = addressMatchRanges l' a := by
  obtain ⟨-, -, -, h4⟩ := alike_parse hb hs p p rfl rfl rfl
  rw [h, h'] at h4
  exact same_match h4 a

/-- C137: the validator accepts the one if and only if it accepts the other. -/
theorem C137_validate (hb : CaseBlind env) (hs : SameLetters s t) (p : Parser) :
    SameEnd (fun x y => x.1 = y.1) (Validator.validate env s p).2 (Validator.validate env t p).2 := by
  obtain ⟨h1, -, h3⟩ := C137_case hb hs (clearErrors p).1
  have key : ∀ x, (Validator.validate env x p).2 = ((Parser.parse env x (clearErrors p).1).2 >>= fun _ => .ok
      (if (Parser.parse env x (clearErrors p).1).1.hasErrors then (false, some (Parser.parse env x (clearErrors p).1).1.errorMessages)
        else (true, none))) := by
    intro x
    unfold Validator.validate
    rw [PM.bind_of_ok (a := ()) (p' := (clearErrors p).1) rfl]
    rcases h : Parser.parse env x (clearErrors p).1 with ⟨q, r⟩
    cases r with
    | ok l => exact congrArg Prod.snd (PM.bind_of_ok h)
    | throw e => exact congrArg Prod.snd (PM.bind_of_throw h)
    | ub w => exact congrArg Prod.snd (PM.bind_of_ub h)
  rw [key, key, ← h3]
  revert h1
  generalize (Parser.parse env s (clearErrors p).1).2 = r
  generalize (Parser.parse env t (clearErrors p).1).2 = r'
  intro h1
  cases h1 with
  | ok _ =>
    refine .ok ?_
    split <;> rfl
  | throw e => exact .throw e
  | ub w => exact .ub w

/-- C137: `string_to_addr()` returns the same address but for its name, or throws in both cases. -/
theorem C137_string_to_addr (hb : CaseBlind env) (hs : SameLetters s t) (d : Str) (port : Int) (proto : Str) (mask : Bool) :
    SameEnd SameButName (Parser.stringToAddr env s d port proto mask) (Parser.stringToAddr env t d port proto mask) := by
  rcases stringToAddr_cases (env := env) (d := d) (port := port) (proto := proto) (mask := mask) s with ⟨hn, e⟩ | ⟨hy, e, -⟩
  · rcases stringToAddr_cases (env := env) (d := d) (port := port) (proto := proto) (mask := mask) t with ⟨-, e'⟩ | ⟨hy, -, -⟩
    · rw [e, e']
      exact .throw _
    · exact absurd hy hn
  · rcases stringToAddr_cases (env := env) (d := d) (port := port) (proto := proto) (mask := mask) t with ⟨hn, -⟩ | ⟨-, e', -⟩
    · exact absurd hy hn
    · rw [e, e']
      exact sameEnd_of (fun _ _ => sameButName_iff.2)
        (alike_bind (alike_parse hb hs) (fun _ _ h => alike_pickOne proto h) _ _ rfl rfl rfl).2.2.2

end

/-! ### Examples -/

theorem isDigit_lower (c : Char) : c.toLower.isDigit = c.isDigit ∧ (c.isDigit = true → c.toLower = c) := by
  rcases toLower_cases c with h | ⟨h1, h2, h3⟩
  · rw [h]
    exact ⟨rfl, fun _ => rfl⟩
  · have key : ∀ c : Char, 65 ≤ c.toNat → c.isDigit = false := by
      intro c hc
      unfold Char.isDigit
      rw [Bool.and_eq_false_iff]
      right
      rw [decide_eq_false_iff_not]
      intro hle
      have : c.toNat ≤ 57 := UInt32.le_iff_toNat_le.1 hle
      omega
    rw [key c h1, key c.toLower (by omega)]
    exact ⟨rfl, fun h => by cases h⟩

theorem sampleConvert_case (s t : Str) (h : SameLetters s t) : sampleConvert s = sampleConvert t := by
  have hall : ∀ s : Str, (lower s).all Char.isDigit = s.all Char.isDigit := by
    intro s
    unfold lower
    rw [List.all_map]
    congr 1
    funext c
    exact (isDigit_lower c).1
  have hfix : ∀ s : Str, s.all Char.isDigit = true → lower s = s := by
    intro s hs
    induction s with
    | nil => rfl
    | cons x s ih =>
      rw [List.all_cons, Bool.and_eq_true] at hs
      show x.toLower :: lower s = x :: s
      rw [ih hs.2, (isDigit_lower x).2 hs.1]
  have e : s.all Char.isDigit = t.all Char.isDigit := by rw [← hall s, h, hall]
  cases hs : s.all Char.isDigit with
  | true => rw [← hfix s hs, h, hfix t (e ▸ hs)]
  | false =>
    unfold sampleConvert
    rw [if_neg (fun h => by rw [hs] at h; cases h.2), if_neg (fun h => by rw [← e, hs] at h; cases h.2)]

/-- The hypotheses are met. -/
theorem sampleEnv_caseBlind : CaseBlind sampleEnv := ⟨sampleConvert_case, fun _ _ _ _ _ _ _ _ => rfl⟩

/-- Two ways of writing a list of addresses: the same ranges, and the name kept is what was written. -/
example : SameLetters "2001:DB8::A,[Fe80::1]:80".toList "2001:db8::a,[fE80::1]:80".toList
    ∧ ∃ l l', (Parser.parse sampleEnv "2001:DB8::A,[Fe80::1]:80".toList commaParser).2 = .ok l
      ∧ (Parser.parse sampleEnv "2001:db8::a,[fE80::1]:80".toList commaParser).2 = .ok l'
      ∧ l.map (fun r => r.lo.getPort) = [0, 80] ∧ l'.map (fun r => r.lo.getPort) = [0, 80] :=
  ⟨by unfold SameLetters; decide +kernel, _, _, rfl, rfl, by decide +kernel, by decide +kernel⟩

/-- A text which is refused is refused in both ways. -/
example : SameLetters "2001:DB8::G".toList "2001:db8::g".toList
    ∧ (Parser.parse sampleEnv "2001:DB8::G".toList sampleParser).1.hasErrors = true
    ∧ (Parser.parse sampleEnv "2001:db8::g".toList sampleParser).1.hasErrors = true :=
  ⟨by unfold SameLetters; decide +kernel, by decide +kernel, by decide +kernel⟩

end Verif
