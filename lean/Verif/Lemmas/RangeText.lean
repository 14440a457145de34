import Verif.SpecRangeText
import Verif.Lemmas.Language
import Verif.Lemmas.MaskText
import Verif.Props.RangeSet

/-!
# Lemmas: the texts of ranges of addresses
-/

namespace Verif.Parser

open Spec

/-- What is known of one bound of a range. -/
def IsBound (has : Bool) (a : Addr) (port : Nat) (d : Bool) : Option Nat → Prop
  | none => has = false ∧ a = Addr.default
  | some n => has = true ∧ ip a.getIpv6.addr = n ∧ a.getPort = port ∧ a.portDefined = d ∧ ip a.getMask = 2 ^ 128 - 1

theorem fresh_bound {r : Range} {u : Str} {b : Bytes16} {port : Nat} {d : Bool} (h : Fresh r u b port d) (hp : port ≤ 65535) :
    IsBound true r.lo port d (some (ip b)) := by
  refine ⟨rfl, ?_, ?_, h.portDefined, ?_⟩
  · rw [Addr.getIpv6, h.address]
  · rw [Addr.getPort, h.address]
    show (swap16 (swap16 (BitVec.ofNat 16 port))).toNat = port
    rw [swap16_swap16, BitVec.toNat_ofNat, Nat.mod_eq_of_lt (by omega)]
  · rw [Addr.getMask, h.mask]
    decide

theorem bounds_chars {u : Str} {lo hi : Option Nat} (h : WrittenRange u lo hi) : ∀ c ∈ u, c ∈ '-' :: textChars := by
  cases h with
  | one h => exact fun c hc => List.mem_cons_of_mem _ (address_chars h c hc)
  | start h =>
    intro c hc
    rw [List.mem_append, List.mem_singleton] at hc
    exact hc.elim (fun hc => List.mem_cons_of_mem _ (address_chars h c hc)) (fun hc => hc ▸ List.mem_cons_self)
  | stop h =>
    intro c hc
    rw [List.mem_cons] at hc
    exact hc.elim (fun hc => hc ▸ List.mem_cons_self) (fun hc => List.mem_cons_of_mem _ (address_chars h c hc))
  | both h h' =>
    intro c hc
    rw [List.mem_append, List.mem_cons] at hc
    rcases hc with hc | hc | hc
    · exact List.mem_cons_of_mem _ (address_chars h c hc)
    · exact hc ▸ List.mem_cons_self
    · exact List.mem_cons_of_mem _ (address_chars h' c hc)

theorem bounds_ne {u : Str} {lo hi : Option Nat} (h : WrittenRange u lo hi) : u ≠ [] := by
  cases h with
  | one h => exact address_ne h
  | start h => simp
  | stop h => simp
  | both h h' => simp

theorem address_dash {u : Str} {n : Nat} (h : AddressOf u n) : '-' ∉ u := fun h' => absurd (address_chars h _ h') (by decide)

section
variable {env : ParseEnv} {p : Parser}

theorem parseBound_accepts (hp : Numeric p) {u q : Str} {n port : Nat} (ha : AddressOf u n) (hq : PortOf env p.config q port) (w : Str)
    (v6 : Bool) : ∃ r, parseBound env w u q v6 p = (p, .ok (some r)) ∧ r.hasFrom = true ∧ (r.hasTo = false ∧ r.hi = Addr.default)
      ∧ IsBound true r.lo port (decide (q ≠ [])) (some n) := by
  obtain ⟨b, hb, hr⟩ := address_readable ha
  obtain ⟨hle, hg⟩ := portOf_given hq
  obtain ⟨r, h1, h2⟩ := parseAddressPort_fresh hp hr hle hg v6
  refine ⟨r, ?_, h2.hasFrom, ⟨h2.hasTo, h2.other⟩, hb ▸ fresh_bound h2 hle⟩
  have h3 : ignoreDuplicates env u q [] v6 p = (p, .ok [r]) := by
    rw [ignoreDuplicates, PM.bind_of_ok h1]
    rfl
  rw [parseBound, PM.bind_of_ok h3]
  rfl

theorem parseBound_refuses (hl : p.config.flags .addressLookup = false) {u q : Str} (hu : '\x00' ∉ u) (hne : u ≠ [])
    (h : ¬ Accepts env p.config u q) (w : Str) (v6 : Bool) : ∃ msg, parseBound env w u q v6 p = (emitAll [msg] p, .ok none) := by
  obtain ⟨msg, h1⟩ := parseAddressPort_refuses (env := env) (p := p) hl hu (.inl hne) h v6
  refine ⟨msg, ?_⟩
  have h3 : ignoreDuplicates env u q [] v6 p = (emitAll [msg] p, .ok []) := by
    rw [ignoreDuplicates, PM.bind_of_ok h1]
    rfl
  rw [parseBound, PM.bind_of_ok h3]
  rfl

/-- The text of a range is accepted. -/
theorem range_accepts (hp : Numeric p) (hr : p.config.flags .addressRange = true) {u q : Str} {lo hi : Option Nat} {port : Nat}
    (hb : WrittenRange u lo hi) (hq : PortOf env p.config q port) (v6 : Bool) :
    (¬ (p.config.sort &&& SORT_NO_EMPTY ≠ 0 ∧ NoneBetween lo hi) →
      ∃ r, parseAddressRangePort env u q [] v6 p = (p, .ok [r]) ∧ IsBound r.hasFrom r.lo port (decide (q ≠ [])) lo
        ∧ IsBound r.hasTo r.hi port (decide (q ≠ [])) hi)
      ∧ (p.config.sort &&& SORT_NO_EMPTY ≠ 0 → NoneBetween lo hi → parseAddressRangePort env u q [] v6 p = (p, .ok [])) := by
  have none1 : ∀ n, ¬ NoneBetween (some n) none := by
    rintro n ⟨_, _, _, h, _⟩
    cases h
  have none2 : ∀ n, ¬ NoneBetween none (some n) := by
    rintro n ⟨_, _, h, _⟩
    cases h
  cases hb with
  | @one _ n h =>
    refine ⟨fun _ => ?_, fun _ h => absurd h (none1 _)⟩
    rw [parseAddressRangePort_plain (.inr (address_dash h))]
    obtain ⟨b, hb, hr⟩ := address_readable h
    obtain ⟨hle, hg⟩ := portOf_given hq
    obtain ⟨r, h1, h2⟩ := parseAddressPort_fresh hp hr hle hg v6
    exact ⟨r, h1, by rw [h2.hasFrom]; exact hb ▸ fresh_bound h2 hle, h2.hasTo, h2.other⟩
  | @start u n h =>
    refine ⟨fun _ => ?_, fun _ h => absurd h (none1 _)⟩
    obtain ⟨r, h1, h2, h3, h4⟩ := parseBound_accepts (env := env) hp h hq "from".toList v6
    refine ⟨r, ?_, by rw [h2]; exact h4, h3⟩
    obtain ⟨x, u', rfl⟩ : ∃ x u', u = x :: u' := by
      cases u with
      | nil => exact absurd rfl (address_ne h)
      | cons x u => exact ⟨x, u, rfl⟩
    have e : splitFirst '-' (x :: u' ++ ['-']) = some (x :: u', []) := splitFirst_append (address_dash h)
    rw [parseAddressRangePort, PM.config_bind, if_pos hr, e]
    dsimp only
    rw [PM.bind_of_ok h1]
    rfl
  | @stop u n h =>
    refine ⟨fun _ => ?_, fun _ h => absurd h (none2 _)⟩
    obtain ⟨r, h1, h2, h3, h4⟩ := parseBound_accepts (env := env) hp h hq "to".toList v6
    refine ⟨r.swapFromTo, ?_, h3, ?_⟩
    · obtain ⟨x, u', rfl⟩ : ∃ x u', u = x :: u' := by
        cases u with
        | nil => exact absurd rfl (address_ne h)
        | cons x u => exact ⟨x, u, rfl⟩
      have e : splitFirst '-' ('-' :: x :: u') = some ([], x :: u') := splitFirst_append (a := []) (by simp)
      rw [parseAddressRangePort, PM.config_bind, if_pos hr, e]
      dsimp only
      rw [PM.bind_of_ok h1]
      rfl
    · show IsBound r.hasFrom r.lo port _ _
      rw [h2]
      exact h4
  | @both u v n m h h' =>
    obtain ⟨r, h1, h2, h3, h4⟩ := parseBound_accepts (env := env) hp h hq "from".toList v6
    obtain ⟨s, k1, k2, k3, k4⟩ := parseBound_accepts (env := env) hp h' hq "to".toList v6
    obtain ⟨x, u', rfl⟩ : ∃ x u', u = x :: u' := by
      cases u with
      | nil => exact absurd rfl (address_ne h)
      | cons x u => exact ⟨x, u, rfl⟩
    obtain ⟨y, v', rfl⟩ : ∃ x u', v = x :: u' := by
      cases v with
      | nil => exact absurd rfl (address_ne h')
      | cons x u => exact ⟨x, u, rfl⟩
    have e : splitFirst '-' (x :: u' ++ '-' :: y :: v') = some (x :: u', y :: v') := splitFirst_append (address_dash h)
    have hrun : parseAddressRangePort env (x :: u' ++ '-' :: y :: v') q [] v6 p
        = (p, .ok (if (decide (p.config.sort &&& SORT_NO_EMPTY = 0) || !(r.setTo s.lo).isEmpty) = true then [r.setTo s.lo] else [])) := by
      rw [parseAddressRangePort, PM.config_bind, if_pos hr, e]
      dsimp only
      rw [PM.bind_of_ok h1]
      dsimp only
      rw [PM.bind_of_ok k1]
      dsimp only
      have : r.setTo s.swapFromTo.hi = r.setTo s.lo := rfl
      rw [this]
      split <;> rfl
    have hemp : (r.setTo s.lo).isEmpty = true ↔ NoneBetween (some n) (some m) := by
      rw [isEmpty_iff]
      constructor
      · rintro ⟨_, h5⟩
        exact ⟨n, m, rfl, rfl, by rw [← h4.2.1, ← k4.2.1]; exact h5⟩
      · rintro ⟨n', m', e1, e2, h5⟩
        cases e1
        cases e2
        refine ⟨⟨h2, rfl⟩, ?_⟩
        rw [← h4.2.1, ← k4.2.1] at h5
        exact h5
    rw [hrun]
    constructor
    · intro hno
      have : (decide (p.config.sort &&& SORT_NO_EMPTY = 0) || !(r.setTo s.lo).isEmpty) = true := by
        rw [Bool.or_eq_true, decide_eq_true_eq, Bool.not_eq_true', ← Bool.not_eq_true, hemp]
        by_cases hs : p.config.sort &&& SORT_NO_EMPTY = 0
        · exact .inl hs
        · exact .inr fun h5 => hno ⟨hs, h5⟩
      rw [if_pos this]
      exact ⟨_, rfl, by show IsBound r.hasFrom _ _ _ _; rw [h2]; exact h4, k4⟩
    · intro hs hn
      rw [if_neg]
      rw [hemp.2 hn, decide_eq_false hs]
      decide

/-- Any other text is refused. -/
theorem range_refuses (hl : p.config.flags .addressLookup = false) (hr : p.config.flags .addressRange = true) {u q : Str} (hu : '\x00' ∉ u)
    (hne : u ≠ [] ∨ p.config.flags .requiredAddress = true) (hno : ¬ ∃ lo hi port, WrittenRange u lo hi ∧ PortOf env p.config q port)
    (hp : Numeric p) (v6 : Bool) : Refuses (parseAddressRangePort env u q [] v6) p := by
  unfold Refuses
  cases hs : splitFirst '-' u with
  | none =>
    rw [parseAddressRangePort_plain (.inr (splitFirst_none.1 hs))]
    exact parseAddressPort_refuses hl hu hne (fun ⟨n, port, h1, h2⟩ => hno ⟨_, _, port, .one h1, h2⟩) v6
  | some x =>
    obtain ⟨a, b⟩ := x
    rw [parseAddressRangePort, PM.config_bind, if_pos hr, hs]
    obtain ⟨rfl, ha⟩ := splitFirst_some hs
    have hua : '\x00' ∉ a := fun h => hu (List.mem_append_left _ h)
    have hub : '\x00' ∉ b := fun h => hu (List.mem_append_right _ (List.mem_cons_of_mem _ h))
    cases a with
    | nil =>
      cases b with
      | nil => exact refuses_error _ p
      | cons y b =>
        obtain ⟨msg, h1⟩ := parseBound_refuses (env := env) (p := p) (q := q) hl hub (List.cons_ne_nil _ _)
          (fun ⟨n, port, h1, h2⟩ => hno ⟨_, _, port, .stop h1, h2⟩) "to".toList v6
        refine ⟨msg, ?_⟩
        dsimp only
        rw [PM.bind_of_ok h1]
        rfl
    | cons x a =>
      by_cases hacc : Accepts env p.config (x :: a) q
      · obtain ⟨n, port, h1, h2⟩ := hacc
        obtain ⟨r, h3, _⟩ := parseBound_accepts (env := env) hp h1 h2 "from".toList v6
        cases b with
        | nil => exact absurd ⟨_, _, port, .start h1, h2⟩ hno
        | cons y b =>
          obtain ⟨msg, h4⟩ := parseBound_refuses (env := env) (p := p) (q := q) hl hub (List.cons_ne_nil _ _)
            (fun ⟨m, port, h4, h5⟩ => hno ⟨_, _, port, .both h1 h4, h5⟩) "to".toList v6
          refine ⟨msg, ?_⟩
          dsimp only
          rw [PM.bind_of_ok h3]
          dsimp only
          rw [PM.bind_of_ok h4]
          rfl
      · obtain ⟨msg, h1⟩ := parseBound_refuses (env := env) (p := p) (q := q) hl hua (List.cons_ne_nil _ _) hacc "from".toList v6
        refine ⟨msg, ?_⟩
        cases b with
        | nil =>
          dsimp only
          rw [PM.bind_of_ok h1]
          rfl
        | cons y b =>
          dsimp only
          rw [PM.bind_of_ok h1]
          rfl

/-- An entry with a range is accepted. -/
theorem rangeEntry_accepts (hp : Numeric p) (hr : p.config.flags .addressRange = true) {t u q : Str} {lo hi : Option Nat} {port : Nat}
    (he : Entry (Ports p.config) t u q) (hb : WrittenRange u lo hi) (hq : PortOf env p.config q port) :
    (¬ (p.config.sort &&& SORT_NO_EMPTY ≠ 0 ∧ NoneBetween lo hi) →
      ∃ v4 r, parseAddress env t [] [] p = (p, .ok (v4, [r])) ∧ IsBound r.hasFrom r.lo port (decide (q ≠ [])) lo
        ∧ IsBound r.hasTo r.hi port (decide (q ≠ [])) hi)
      ∧ (p.config.sort &&& SORT_NO_EMPTY ≠ 0 → NoneBetween lo hi → ∃ v4, parseAddress env t [] [] p = (p, .ok (v4, []))) := by
  have hc := bounds_chars hb
  obtain ⟨v4, v6, h⟩ := entry_dispatch (env := env) he (bounds_ne hb) (fun h => absurd (hc _ (List.mem_of_head? h)) (by decide))
    (fun h => absurd (hc _ h) (by decide))
  obtain ⟨h1, h2⟩ := range_accepts (env := env) hp hr hb hq v6
  constructor
  · intro hn
    obtain ⟨r, h3, h4⟩ := h1 hn
    exact ⟨v4, r, by rw [h, PM.bind_of_ok h3]; rfl, h4⟩
  · intro hs hn
    exact ⟨v4, by rw [h, PM.bind_of_ok (h2 hs hn)]; rfl⟩

theorem bounds_dot {u : Str} {lo hi : Option Nat} (h : WrittenRange u lo hi) (hu : ':' ∉ u) : '.' ∈ u := by
  have key : ∀ {v : Str} {n : Nat}, AddressOf v n → ':' ∉ v → '.' ∈ v := fun h hv => by
    rcases address_colon h with h2 | h2
    · exact h2.2
    · rw [List.count_eq_zero.2 hv] at h2
      omega
  cases h with
  | one h => exact key h hu
  | start h => exact List.mem_append_left _ (key h fun h' => hu (List.mem_append_left _ h'))
  | stop h => exact List.mem_cons_of_mem _ (key h fun h' => hu (List.mem_cons_of_mem _ h'))
  | both h h' => exact List.mem_append_left _ (key h fun h' => hu (List.mem_append_left _ h'))

theorem rangeOutcome_refuses (hp : Numeric p) (hr : p.config.flags .addressRange = true) {t : Str} (hnul : '\x00' ∉ t)
    (hne : p.config.flags .requiredAddress = true ∨ ¬ LeftOut t)
    (h : ¬ ∃ u q lo hi port, Entry (Ports p.config) t u q ∧ WrittenRange u lo hi ∧ PortOf env p.config q port) {f : PM (List Range)}
    (ho : Outcome env f p t) : Refuses f p := by
  rcases ho with ho | ⟨u, q, v6, e, h0, hm, ho⟩
  · exact ho
  · have := range_refuses (env := env) (q := q) hp.lookup hr (u := u) (fun h => hnul (hm _ h)) ?_ ?_ hp v6
    · obtain ⟨msg, this⟩ := this
      exact ⟨msg, e.trans this⟩
    · rcases hne with hne | hne
      · exact .inr hne
      · exact .inl fun h => hne (h0 h)
    · rintro ⟨lo, hi, port, hb, hq⟩
      rcases ho with ho | ⟨hf, hu, ho⟩
      · exact h ⟨u, q, lo, hi, port, ho, hb, hq⟩
      · rcases ho with ho | ho | ho
        · rw [PortOf, if_pos ho] at hq
          exact hf hq.2.1
        · exact absurd (bounds_chars hb _ ho) (by decide)
        · exact ho (bounds_dot hb hu)

/-- Any other entry is refused. -/
theorem rangeEntry_refuses (hp : Numeric p) (hr : p.config.flags .addressRange = true) {t : Str} (hnul : '\x00' ∉ t)
    (hne : p.config.flags .requiredAddress = true ∨ ¬ LeftOut t)
    (h : ¬ ∃ u q lo hi port, Entry (Ports p.config) t u q ∧ WrittenRange u lo hi ∧ PortOf env p.config q port) :
    ∃ v4 msg, parseAddress env t [] [] p = (emitAll [msg] p, .ok (v4, [])) := by
  obtain ⟨v4, h1, h2, h3⟩ := parseAddress_dispatch env p t
  have ho : Outcome env (if v4 then parseAddress4 env t [] else parseAddress6 env t (t.count ':') []) p t := by
    cases v4 with
    | true => exact address4_outcome (h1 rfl).1
    | false => exact address6_outcome (h2 rfl)
  have hf : Refuses (if v4 then parseAddress4 env t [] else parseAddress6 env t (t.count ':') []) p :=
    rangeOutcome_refuses hp hr hnul hne h ho
  obtain ⟨msg, hf⟩ := hf
  refine ⟨v4, msg, ?_⟩
  rw [h3, PM.bind_def, hf]
  rfl

/-- Any other entry is refused, whatever the mask. -/
theorem rangeEntry_refuses_mask (hp : Numeric p) (hr : p.config.flags .addressRange = true) {t : Str} (m : Str) (hnul : '\x00' ∉ t)
    (hne : p.config.flags .requiredAddress = true ∨ ¬ LeftOut t)
    (h : ¬ ∃ u q lo hi port, Entry (Ports p.config) t u q ∧ WrittenRange u lo hi ∧ PortOf env p.config q port) :
    ∃ v4 msg, parseAddress env t m [] p = (emitAll [msg] p, .ok (v4, [])) :=
  parseAddress_refuses_any m (fun _ ho => rangeOutcome_refuses hp hr hnul hne h ho) (rangeEntry_refuses hp hr hnul hne h)

end

end Verif.Parser
