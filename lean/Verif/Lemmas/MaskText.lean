import Verif.SpecMask
import Verif.Lemmas.Language
import Verif.Lemmas.ParserMask

/-!
# Lemmas about the parser: which masks are read
-/

namespace Verif.Parser

open Spec

theorem decVal_digit {c : Char} {d : Nat} (h : Inet.decVal c = some d) : c.isDigit = true := by
  rw [Inet.decVal] at h
  split at h
  · rename_i h1
    simp only [Char.isDigit, Bool.and_eq_true, decide_eq_true_eq]
    exact h1
  · cases h

theorem scanDigits_number {limit : Nat} : ∀ {t : Str} {acc n : Nat}, scanDigits limit t acc = .number n → ∀ c ∈ t, c.isDigit = true
  | [], _, _, _ => by simp
  | c :: t, acc, n, h => by
    rw [scanDigits] at h
    cases hd : Inet.decVal c with
    | none => rw [hd] at h; cases h
    | some d =>
      rw [hd] at h
      dsimp only at h
      split at h
      · cases h
      · intro x hx
        rcases List.mem_cons.1 hx with rfl | hx
        · exact decVal_digit hd
        · exact scanDigits_number h x hx

/-- A mask which is not a number, or too large a number, is an error. -/
theorem parseMask_refuses (env : ParseEnv) {m : Str} (h0 : m ≠ []) (hnul : '\x00' ∉ m) (a : Addr) (v4 : Bool) (p : Parser)
    (ham : p.config.flags .addressMask = false) (h : ¬ ((∀ c ∈ m, c.isDigit = true) ∧ Nat.ofDigitChars 10 m 0 ≤ maskLimit v4)) :
    ∃ msg, parseMask env m a v4 p = (emitAll [msg] p, .ok a) := by
  by_cases hd : ∀ c ∈ m, c.isDigit = true
  · obtain ⟨msg, hm⟩ := (parseMask_number env m h0 hd a v4).2 (Nat.lt_of_not_le fun hle => h ⟨hd, hle⟩)
    refine ⟨msg, ?_⟩
    rw [hm, PM.bind_of_ok (emitError_apply msg p)]
    rfl
  · have hc : cstr m = m := cstr_noNul fun c hc e => hnul (e ▸ hc)
    rw [parseMask, if_neg h0, hc]
    cases hs : scanDigits 10000 m 0 with
    | number n => exact absurd (scanDigits_number hs) hd
    | tooLarge =>
      refine ⟨"Mask size too large (".toList ++ m ++ ", expected a maximum of 128).".toList, ?_⟩
      dsimp only
      rw [PM.bind_of_ok (emitError_apply _ p)]
      rfl
    | notNumber =>
      refine ⟨"Address like mask not allowed (/".toList ++ m ++ "), try with a simple number instead.".toList, ?_⟩
      dsimp only
      rw [PM.bind_of_ok (a := none) (p' := emitAll ["Address like mask not allowed (/".toList ++ m ++ "), try with a simple number instead.".toList] p)]
      · rfl
      · rw [addressMask, PM.config_bind, ham]
        dsimp only
        rw [if_pos (by rfl), PM.bind_of_ok (emitError_apply _ p)]
        rfl

section
variable {env : ParseEnv} {p : Parser}

/-- An entry whose outcomes are all refusals is refused, whatever the mask. -/
theorem parseAddress_refuses_any {t : Str} (m : Str) (ho : ∀ f : PM (List Range), Outcome env f p t → Refuses f p)
    (h0 : ∃ v4 msg, parseAddress env t [] [] p = (emitAll [msg] p, .ok (v4, []))) :
    ∃ v4 msg, parseAddress env t m [] p = (emitAll [msg] p, .ok (v4, [])) := by
  by_cases hh : t ≠ [] ∧ (2 ≤ t.count ':' ∨ t.head? ≠ some ':')
  · rw [parseAddress_mask env t m [] p hh]
    exact h0
  · have h2 : t = [] ∨ t.head? = some ':' ∧ t.count ':' < 2 := by
      by_cases h3 : t = []
      · exact .inl h3
      · refine .inr ⟨Classical.byContradiction fun h4 => hh ⟨h3, .inr h4⟩, Nat.lt_of_not_le fun h4 => hh ⟨h3, .inl h4⟩⟩
    have hcount : t.count ':' < 2 := by
      rcases h2 with h2 | h2
      · rw [h2]; decide
      · exact h2.2
    have o4 := ho _ (address4_outcome (env := env) (p := p) (t := t) hcount)
    have o6 := ho _ (address6_outcome (env := env) (p := p) (t := t) (by
      intro h3 h4 _
      rcases h2 with h2 | h2
      · rw [h2] at h3; cases h3
      · exact absurd h2.1 h4))
    obtain ⟨m4, o4⟩ := o4
    obtain ⟨m6, o6⟩ := o6
    have key : ∃ b : Bool, parseAddress env t m [] p
        = (if b then parseAddress4 env t [] >>= fun l => (Pure.pure (true, l) : PM (Bool × List Range))
          else parseAddress6 env t (t.count ':') [] >>= fun l => (Pure.pure (false, l) : PM (Bool × List Range))) p := by
      rw [parseAddress, PM.config_bind, if_neg (by omega), if_pos (h2.imp_right And.left)]
      split
      · split
        · exact ⟨false, rfl⟩
        · cases scanDigits 1000 (cstr m) 0 with
          | number n =>
            dsimp only
            split
            · exact ⟨false, rfl⟩
            · exact ⟨true, rfl⟩
          | tooLarge => exact ⟨true, rfl⟩
          | notNumber => exact ⟨true, rfl⟩
      · split
        · exact ⟨false, rfl⟩
        · exact ⟨true, rfl⟩
    obtain ⟨b, key⟩ := key
    rw [key]
    cases b with
    | true => exact ⟨true, m4, by rw [if_pos rfl, PM.bind_def, o4]; rfl⟩
    | false => exact ⟨false, m6, by rw [if_neg Bool.false_ne_true, PM.bind_def, o6]; rfl⟩

/-- An entry which is not of the language is refused, whatever the mask. -/
theorem parseAddress_refuses_mask (hl : p.config.flags .addressLookup = false) {t : Str} (m : Str) (hnul : '\x00' ∉ t)
    (hd : p.config.flags .addressRange = false ∨ '-' ∉ t) (hne : p.config.flags .requiredAddress = true ∨ ¬ LeftOut t)
    (h : ¬ ∃ u q, Entry (Ports p.config) t u q ∧ Accepts env p.config u q) :
    ∃ v4 msg, parseAddress env t m [] p = (emitAll [msg] p, .ok (v4, [])) := by
  exact parseAddress_refuses_any m (fun _ ho => outcome_refuses hl hnul hd hne h ho) (parseAddress_refuses hl hnul hd hne h)

end

end Verif.Parser
