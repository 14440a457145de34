import Verif.Lemmas.ParserList
import Verif.Lemmas.Mask

/-!
# Lemmas about the parser: masks written as a number
-/

namespace Verif.Parser

open Spec

theorem decVal_isDigit (c : Char) (h : c.isDigit = true) : Inet.decVal c = some (c.toNat - '0'.toNat) := by
  rw [Inet.decVal, if_pos]
  simp only [Char.isDigit, Bool.and_eq_true, decide_eq_true_eq] at h
  exact ⟨h.1, h.2⟩

theorem isDigit_not_space (c : Char) (h : c.isDigit = true) : isSpace c = false := by
  cases hs : isSpace c with
  | false => rfl
  | true =>
    simp only [isSpace, Bool.or_eq_true, decide_eq_true_eq] at hs
    rcases hs with ((((rfl | rfl) | rfl) | rfl) | rfl) | rfl <;> exact absurd h (by decide)

theorem le_ofDigitChars (t : Str) (acc : Nat) : acc ≤ Nat.ofDigitChars 10 t acc := by
  induction t generalizing acc with
  | nil => simp
  | cons c t ih =>
    rw [Nat.ofDigitChars_cons]
    have := ih (10 * acc + (c.toNat - '0'.toNat))
    omega

/-- The digits are read as a decimal number, up to the limit. -/
theorem scanDigits_digits (limit : Nat) (t : Str) (ht : ∀ c ∈ t, c.isDigit = true) (acc : Nat) (hacc : acc ≤ limit) :
    scanDigits limit t acc =
      if Nat.ofDigitChars 10 t acc > limit then .tooLarge else .number (Nat.ofDigitChars 10 t acc) := by
  induction t generalizing acc with
  | nil =>
    rw [scanDigits, Nat.ofDigitChars_nil, if_neg (by omega)]
  | cons c t ih =>
    rw [scanDigits, decVal_isDigit c (ht c List.mem_cons_self), Nat.ofDigitChars_cons]
    dsimp only
    rw [Nat.mul_comm 10 acc]
    have hle := le_ofDigitChars t (acc * 10 + (c.toNat - '0'.toNat))
    generalize acc * 10 + (c.toNat - '0'.toNat) = m at *
    split
    · rw [if_pos (by omega)]
    · rw [ih (fun x hx => ht x (List.mem_cons_of_mem _ hx)) m (by omega)]

theorem cstr_digits (t : Str) (ht : ∀ c ∈ t, c.isDigit = true) : cstr t = t := by
  refine takeWhile_self fun x hx => ?_
  have := ht x hx
  cases h : decide (x ≠ '\x00') with
  | true => rfl
  | false =>
    have : x = '\x00' := by simpa using h
    subst this
    exact absurd (ht _ hx) (by decide)

/-- The mask bytes built for every size. -/
theorem clearLow_prefix (n : Nat) (hn : n ≤ 128) : clearLow 16 (128 - n) (Vector.replicate 16 255) = .ok (prefixBytes n) := by
  have key : ∀ n : Fin 129, clearLow 16 (128 - n.val) (Vector.replicate 16 255) = .ok (prefixBytes n.val) := by
    decide +kernel
  exact key ⟨n, by omega⟩

/-- The largest size of mask for an address. -/
def maskLimit (v4 : Bool) : Nat := if v4 then 32 else 128

/-- The address with a mask of `n` bits. -/
def withMask (v4 : Bool) (n : Nat) (a : Addr) : Addr :=
  { a with maskDefined := true, mask := prefixBytes (n + (128 - maskLimit v4)) }

theorem parseMask_number (env : ParseEnv) (t : Str) (h0 : t ≠ []) (ht : ∀ c ∈ t, c.isDigit = true) (a : Addr) (v4 : Bool) :
    (Nat.ofDigitChars 10 t 0 ≤ maskLimit v4 → parseMask env t a v4 = Pure.pure (withMask v4 (Nat.ofDigitChars 10 t 0) a))
    ∧ (maskLimit v4 < Nat.ofDigitChars 10 t 0 → ∃ msg, parseMask env t a v4 = (emitError msg >>= fun _ => Pure.pure a)) := by
  rw [parseMask, if_neg h0, cstr_digits t ht, scanDigits_digits 10000 t ht 0 (by omega)]
  generalize Nat.ofDigitChars 10 t 0 = n
  constructor
  · intro hn
    have hl : maskLimit v4 ≤ 128 := by cases v4 <;> decide
    rw [if_neg (by omega)]
    dsimp only
    cases v4 with
    | true =>
      simp only [maskLimit] at hn hl
      have e : 32 - n = 128 - (n + 96) := by simp at hn; omega
      rw [if_neg (by simp; simpa using hn), if_neg (by simp), if_pos rfl, e, clearLow_prefix _ (by simp at hn; omega)]
      rfl
    | false =>
      simp only [maskLimit] at hn hl
      rw [if_neg (by simp), if_neg (by simp; simpa using hn), if_neg (by simp), clearLow_prefix _ (by simpa using hn)]
      rfl
  · intro hn
    by_cases h : n > 10000
    · rw [if_pos h]
      exact ⟨_, rfl⟩
    · rw [if_neg h]
      dsimp only
      cases v4 with
      | true =>
        rw [if_pos (by simpa [maskLimit] using hn)]
        exact ⟨_, rfl⟩
      | false =>
        rw [if_neg (by simp), if_pos (by simpa [maskLimit] using hn)]
        exact ⟨_, rfl⟩

/-- The masks of all the addresses, when each accepts the size. -/
theorem maskLoop_ok (env : ParseEnv) (t : Str) (h0 : t ≠ []) (ht : ∀ c ∈ t, c.isDigit = true) (v4 : Bool) (l : List Range)
    (hl : ∀ r ∈ l, Nat.ofDigitChars 10 t 0 ≤ maskLimit (v4 && r.lo.isIpv4)) (p : Parser) :
    maskLoop env t v4 l p
      = (p, .ok (l.map fun r => { r with lo := withMask (v4 && r.lo.isIpv4) (Nat.ofDigitChars 10 t 0) r.lo })) := by
  induction l with
  | nil => rfl
  | cons r l ih =>
    have hc : ∀ c : Config, chooseMask c t v4 = t := fun c => by rw [chooseMask, if_pos h0]
    rw [maskLoop, PM.config_bind, hc, (parseMask_number env t h0 ht r.lo _).1 (hl r List.mem_cons_self), PM.pure_bind,
      PM.bind_of_ok (ih fun x hx => hl x (List.mem_cons_of_mem _ hx))]
    rfl

/-- Otherwise there is an error. -/
theorem maskLoop_error (env : ParseEnv) (t : Str) (h0 : t ≠ []) (ht : ∀ c ∈ t, c.isDigit = true) (v4 : Bool)
    (l : List Range) (hl : ∃ r ∈ l, maskLimit (v4 && r.lo.isIpv4) < Nat.ofDigitChars 10 t 0) (p : Parser) :
    ∃ errs l', errs ≠ [] ∧ maskLoop env t v4 l p = (emitAll errs p, .ok l') := by
  have key : ∀ (l : List Range) (p : Parser), ∃ errs l', maskLoop env t v4 l p = (emitAll errs p, .ok l')
      ∧ ((∃ r ∈ l, maskLimit (v4 && r.lo.isIpv4) < Nat.ofDigitChars 10 t 0) → errs ≠ []) := by
    intro l
    induction l with
    | nil => exact fun p => ⟨[], [], by rw [emitAll_nil]; rfl, by simp⟩
    | cons r l ih =>
      intro p
      have hc : ∀ c : Config, chooseMask c t v4 = t := fun c => by rw [chooseMask, if_pos h0]
      rw [maskLoop, PM.config_bind, hc]
      rcases Nat.lt_or_ge (maskLimit (v4 && r.lo.isIpv4)) (Nat.ofDigitChars 10 t 0) with h | h
      · obtain ⟨msg, hm⟩ := (parseMask_number env t h0 ht r.lo _).2 h
        have hp : parseMask env t r.lo (v4 && r.lo.isIpv4) p = (emitAll [msg] p, .ok r.lo) := by
          rw [hm, PM.bind_of_ok (emitError_apply msg p)]
          rfl
        obtain ⟨errs, l', h1, -⟩ := ih (emitAll [msg] p)
        refine ⟨msg :: errs, { r with lo := r.lo } :: l', ?_, by simp⟩
        rw [PM.bind_of_ok hp, PM.bind_of_ok h1, ← emitAll_append]
        rfl
      · obtain ⟨errs, l', h1, h2⟩ := ih p
        refine ⟨errs, { r with lo := withMask (v4 && r.lo.isIpv4) (Nat.ofDigitChars 10 t 0) r.lo } :: l', ?_, ?_⟩
        · rw [(parseMask_number env t h0 ht r.lo _).1 h, PM.pure_bind, PM.bind_of_ok h1]
          rfl
        · rintro ⟨x, hx, hlt⟩
          rcases List.mem_cons.1 hx with rfl | hx
          · omega
          · exact h2 ⟨x, hx, hlt⟩
  obtain ⟨errs, l', h1, h2⟩ := key l p
  exact ⟨errs, l', h2 hl, h1⟩

/-- Whether an address which is not missing is read with the IPv4 syntax. -/
def asIpv4 (c : Config) (inp : Str) : Bool :=
  if inp.count ':' ≥ 2 then false
  else if inp.head? = some '[' ∨ ']' ∈ inp then false
  else if !c.flags .port && !c.flags .requiredPort then
    match splitFirst ':' inp with
    | none => true
    | some (before, _) => decide ('.' ∈ before)
  else true

/-- The syntax of an address does not depend on the mask (unless the address is missing). -/
theorem parseAddress_eq (env : ParseEnv) (inp mask : Str) (result : List Range) (p : Parser)
    (h : inp ≠ [] ∧ (2 ≤ inp.count ':' ∨ inp.head? ≠ some ':')) :
    parseAddress env inp mask result p =
      ((if asIpv4 p.config inp then parseAddress4 env inp result else parseAddress6 env inp (inp.count ':') result)
        >>= fun l => (Pure.pure (asIpv4 p.config inp, l) : PM (Bool × List Range))) p := by
  rw [parseAddress, PM.config_bind]
  by_cases h1 : inp.count ':' ≥ 2
  · have e : asIpv4 p.config inp = false := by rw [asIpv4, if_pos h1]
    rw [e, if_pos h1]
    rfl
  · have h2 : ¬ (inp = [] ∨ inp.head? = some ':') := by
      rintro (h2 | h2)
      · exact h.1 h2
      · rcases h.2 with h3 | h3
        · exact h1 h3
        · exact h3 h2
    rw [if_neg h1, if_neg h2]
    by_cases h3 : inp.head? = some '[' ∨ ']' ∈ inp
    · have e : asIpv4 p.config inp = false := by rw [asIpv4, if_neg h1, if_pos h3]
      rw [e, if_pos h3]
      rfl
    · rw [if_neg h3]
      by_cases h4 : (!p.config.flags .port && !p.config.flags .requiredPort) = true
      · rw [if_pos h4]
        cases h5 : splitFirst ':' inp with
        | none =>
          have e : asIpv4 p.config inp = true := by rw [asIpv4, if_neg h1, if_neg h3, if_pos h4, h5]
          rw [e]
          rfl
        | some x =>
          have e : asIpv4 p.config inp = decide ('.' ∈ x.1) := by rw [asIpv4, if_neg h1, if_neg h3, if_pos h4, h5]
          rw [e]
          dsimp only
          by_cases h6 : '.' ∈ x.1
          · rw [if_pos h6, decide_eq_true h6]
            rfl
          · rw [if_neg h6, decide_eq_false h6]
            rfl
      · rw [if_neg h4]
        have e : asIpv4 p.config inp = true := by rw [asIpv4, if_neg h1, if_neg h3, if_neg h4]
        rw [e]
        rfl

/-- The same in terms of the boolean returned. -/
theorem parseAddress_fst (env : ParseEnv) (inp mask : Str) (result : List Range) (p p1 : Parser) (x : Bool × List Range)
    (h : inp ≠ [] ∧ (2 ≤ inp.count ':' ∨ inp.head? ≠ some ':'))
    (hx : parseAddress env inp mask result p = (p1, .ok x)) : x.1 = asIpv4 p.config inp := by
  rw [parseAddress_eq env inp mask result p h] at hx
  rw [PM.bind_def] at hx
  cases hm : (if asIpv4 p.config inp = true then parseAddress4 env inp result
      else parseAddress6 env inp (inp.count ':') result) p with
  | mk q r =>
    rw [hm] at hx
    cases r with
    | ok l =>
      cases hx
      rfl
    | throw e => cases hx
    | ub w => cases hx

theorem parseAddress_mask (env : ParseEnv) (inp mask : Str) (result : List Range) (p : Parser)
    (h : inp ≠ [] ∧ (2 ≤ inp.count ':' ∨ inp.head? ≠ some ':')) :
    parseAddress env inp mask result p = parseAddress env inp [] result p := by
  rw [parseAddress_eq env inp mask result p h, parseAddress_eq env inp [] result p h]

end Verif.Parser
