import Verif.Props.ParserState

/-!
# Property C83: the options of the parser
-/

namespace Verif

/-- The default address of a family (`true` is IPv6) which a text sets, from the documentation of `set_default_address()`. -/
inductive AddressFor : Str → Bool → Str → Prop
  | bracket (s : Str) : AddressFor ('[' :: s ++ [']']) true s
  | colon {s : Str} (h : s.head? ≠ some '[') (hc : ':' ∈ s) : AddressFor s true s
  | other {s : Str} (h0 : s ≠ []) (h : s.head? ≠ some '[') (hc : ':' ∉ s) : AddressFor s false s

/-- There is a bracket at one of the ends of the text. -/
def EndBracket (m : Str) : Prop := m.head? = some '[' ∨ m.getLast? = some ']'

/-- The default mask of a family (`true` is IPv6) which a text sets, from the documentation of `set_default_mask()`. -/
inductive MaskFor (env : ParseEnv) : Str → Bool → Str → Prop
  | bracket (m : Str) : MaskFor env ('[' :: m ++ [']']) true m
  | colon {m : Str} (h : ¬ EndBracket m) (hc : ':' ∈ m) : MaskFor env m true m
  | number {m : Str} {n : Int} (h0 : m ≠ []) (h : ¬ EndBracket m) (hc : ':' ∉ m) (hn : env.convert m = some n) (h1 : 0 ≤ n) (h2 : n ≤ 128) :
      MaskFor env m (decide (32 < n)) m
  | other {m : Str} (h0 : m ≠ []) (h : ¬ EndBracket m) (hc : ':' ∉ m) (hn : env.convert m = none) : MaskFor env m false m

/-- The options with another default address. -/
def withAddress (p : Parser) (v6 : Bool) (s : Str) : Parser :=
  if v6 then { p with config := { p.config with defaultAddress6 := s } } else { p with config := { p.config with defaultAddress4 := s } }

/-- The options with another default mask. -/
def withMask (p : Parser) (v6 : Bool) (m : Str) : Parser :=
  if v6 then { p with config := { p.config with defaultMask6 := m } } else { p with config := { p.config with defaultMask4 := m } }

/-- The text between two brackets. -/
theorem bracketed {s : Str} (h1 : s.head? = some '[') (h2 : s.getLast? = some ']') : s = '[' :: (s.drop 1).dropLast ++ [']'] := by
  cases s with
  | nil => simp at h1
  | cons c s =>
    rw [List.head?_cons, Option.some.injEq] at h1
    subst h1
    cases s with
    | nil => simp at h2
    | cons d s =>
      rw [List.getLast?_cons_cons] at h2
      rw [List.cons_append, List.drop_succ_cons, List.drop_zero]
      obtain ⟨ys, hys⟩ := List.getLast?_eq_some_iff.1 h2
      rw [hys, List.dropLast_concat]

theorem setDefaultAddress_plain (p : Parser) {s : Str} (h0 : s ≠ []) (h : s.head? ≠ some '[') :
    Parser.setDefaultAddress s p
      = (if s.contains ':' then PM.setConfig { p.config with defaultAddress6 := s }
          else PM.setConfig { p.config with defaultAddress4 := s } : PM Unit) p := by
  unfold Parser.setDefaultAddress
  rw [PM.config_bind]
  cases s with
  | nil => exact absurd rfl h0
  | cons c t =>
    have hb : c ≠ '[' := fun e => h (by rw [e]; rfl)
    simp [hb]

/-- C83: `set_default_address()` changes the default address of the family the text is of, and nothing else; both without text. -/
theorem C83_address (p : Parser) (s : Str) :
    (s = [] → Parser.setDefaultAddress s p
      = ({ p with config := { p.config with defaultAddress4 := [], defaultAddress6 := [] } }, .ok ()))
    ∧ (∀ v6 a, AddressFor s v6 a → Parser.setDefaultAddress s p = (withAddress p v6 a, .ok ()))
    ∧ (s ≠ [] → (∀ v6 a, ¬ AddressFor s v6 a) → Parser.setDefaultAddress s p = (p, .throw .invalidArgument)) := by
  refine ⟨fun h => by subst h; rfl, fun v6 a h => ?_, fun h0 h => ?_⟩
  · cases h with
    | bracket s =>
      simp only [Parser.setDefaultAddress, PM.config_bind, List.cons_append]
      have hl : ('[' :: (a ++ [']'])).getLast? = some ']' := by
        rw [← List.cons_append, List.getLast?_append]
        rfl
      rw [if_neg (fun h => h hl), List.dropLast_concat]
      rfl
    | colon h hc =>
      rw [setDefaultAddress_plain p (List.ne_nil_of_mem hc) h, if_pos (by simpa using hc)]
      rfl
    | other h0 h hc =>
      rw [setDefaultAddress_plain p h0 h, if_neg (by simpa using hc)]
      rfl
  · have h1 : s.head? = some '[' := by
      apply Classical.byContradiction
      intro h1
      by_cases hc : ':' ∈ s
      · exact h _ _ (.colon h1 hc)
      · exact h _ _ (.other h0 h1 hc)
    have h2 : s.getLast? ≠ some ']' := fun h2 => by
      have := AddressFor.bracket ((s.drop 1).dropLast)
      rw [← bracketed h1 h2] at this
      exact h _ _ this
    cases s with
    | nil => cases h1
    | cons c t =>
      rw [List.head?_cons, Option.some.injEq] at h1
      subst h1
      unfold Parser.setDefaultAddress
      rw [PM.config_bind]
      show (if ('[' :: t).getLast? ≠ some ']' then PM.throw .invalidArgument
        else PM.setConfig { p.config with defaultAddress6 := t.dropLast } : PM Unit) p = _
      rw [if_pos h2]
      rfl

/-- C83: `set_default_mask()` changes the default mask of the family the text is of, and nothing else; both without text. -/
theorem C83_mask (env : ParseEnv) (p : Parser) (m : Str) :
    (m = [] → Parser.setDefaultMask env m p
      = ({ p with config := { p.config with defaultMask4 := [], defaultMask6 := [] } }, .ok ()))
    ∧ (∀ v6 a, MaskFor env m v6 a → Parser.setDefaultMask env m p = (withMask p v6 a, .ok ()))
    ∧ (m ≠ [] → (∀ v6 a, ¬ MaskFor env m v6 a) → Parser.setDefaultMask env m p = (p, .throw .invalidArgument)) := by
  refine ⟨fun h => by subst h; rfl, fun v6 a h => ?_, fun h0 h => ?_⟩
  · unfold Parser.setDefaultMask
    rw [PM.config_bind]
    have plain : ∀ m : Str, ¬ EndBracket m → (m.head? == some '[') = false ∧ (m.getLast? == some ']') = false := fun m h =>
      ⟨by simpa using fun e => h (.inl e), by simpa using fun e => h (.inr e)⟩
    cases h with
    | bracket _ =>
      rw [if_neg (by simp)]
      have hl : ('[' :: a ++ [']']).getLast? = some ']' := by
        rw [List.getLast?_append]
        rfl
      have hh : ('[' :: a ++ [']']).head? = some '[' := rfl
      simp only [hl, hh, beq_self_eq_true, Bool.and_self, if_true]
      rw [List.cons_append, List.drop_succ_cons, List.drop_zero, List.dropLast_concat]
      rfl
    | colon h hc =>
      rw [if_neg (List.ne_nil_of_mem hc)]
      simp only [(plain _ h).1, (plain _ h).2, Bool.and_self, Bool.or_self, Bool.false_eq_true, if_false]
      rw [if_pos (by simpa using hc)]
      rfl
    | number h0 h hc hn h1 h2 =>
      rename_i n
      rw [if_neg h0]
      simp only [(plain _ h).1, (plain _ h).2, Bool.and_self, Bool.or_self, Bool.false_eq_true, if_false]
      rw [if_neg (by simpa using hc), hn]
      dsimp only
      rw [if_neg (by omega)]
      by_cases h3 : 32 < n
      · rw [if_pos h3, decide_eq_true h3]
        rfl
      · rw [if_neg h3, decide_eq_false h3]
        rfl
    | other h0 h hc hn =>
      rw [if_neg h0]
      simp only [(plain _ h).1, (plain _ h).2, Bool.and_self, Bool.or_self, Bool.false_eq_true, if_false]
      rw [if_neg (by simpa using hc), hn]
      rfl
  · unfold Parser.setDefaultMask
    rw [PM.config_bind, if_neg h0]
    by_cases h1 : m.head? = some '['
    · by_cases h2 : m.getLast? = some ']'
      · have := MaskFor.bracket (env := env) ((m.drop 1).dropLast)
        rw [← bracketed h1 h2] at this
        exact absurd this (h _ _)
      · rw [if_neg (by simp [h2]), if_pos (by simp [h1])]
        rfl
    · by_cases h2 : m.getLast? = some ']'
      · rw [if_neg (by simp [h1]), if_pos (by simp [h2])]
        rfl
      · have hb : ¬ EndBracket m := fun h' => h'.elim h1 h2
        have hc : ':' ∉ m := fun hc => h _ _ (.colon hb hc)
        rw [if_neg (by simp [h1]), if_neg (by simp [h1, h2]), if_neg (by simpa using hc)]
        cases hn : env.convert m with
        | none => exact absurd (MaskFor.other h0 hb hc hn) (h _ _)
        | some n =>
          dsimp only
          rw [if_pos]
          · rfl
          · apply Classical.byContradiction
            intro h3
            exact h _ _ (.number h0 hb hc hn (by omega) (by omega))

/-- C83: `set_default_port()` sets the number it is given, from -1 to 65535, and refuses any other one. -/
theorem C83_port (p : Parser) (n : Int) :
    Parser.setDefaultPort n p
      = if -1 ≤ n ∧ n ≤ 65535 then ({ p with config := { p.config with defaultPort := n } }, .ok ()) else (p, .throw .invalidArgument) := by
  unfold Parser.setDefaultPort
  by_cases h : -1 ≤ n ∧ n ≤ 65535
  · rw [if_pos h, if_neg (by omega)]
    rfl
  · rw [if_neg h, if_pos (by omega)]
    rfl

/-- C83: the same with a number as a text. Missing: numbers of more than 32 bits. -/
theorem C83_port_text_partial (env : ParseEnv) (p : Parser) (s : Str) (h : ∀ n, env.convert s = some n → -2 ^ 31 ≤ n ∧ n < 2 ^ 31) :
    (s = [] → Parser.setDefaultPortStr env s p = ({ p with config := { p.config with defaultPort := -1 } }, .ok ()))
    ∧ (∀ n, s ≠ [] → env.convert s = some n → Parser.setDefaultPortStr env s p
      = if -1 ≤ n ∧ n ≤ 65535 then ({ p with config := { p.config with defaultPort := n } }, .ok ()) else (p, .throw .invalidArgument))
    ∧ (s ≠ [] → env.convert s = none → Parser.setDefaultPortStr env s p = (p, .throw .invalidArgument)) := by
  refine ⟨fun h0 => ?_, fun n h0 hn => ?_, fun h0 hn => ?_⟩
  · rw [Parser.setDefaultPortStr, if_pos h0, C83_port, if_pos (by omega)]
  · have := h n hn
    have e : Addr.toCInt n = n := by
      unfold Addr.toCInt
      rw [BitVec.toInt_ofInt]
      exact Int.bmod_eq_of_le (by omega) (by omega)
    rw [Parser.setDefaultPortStr, if_neg h0, hn]
    dsimp only
    rw [e, C83_port]
  · rw [Parser.setDefaultPortStr, if_neg h0, hn]
    rfl

/-- C83: `set_protocol()` accepts IP, TCP and UDP only; by name, it accepts any protocol the system knows; `clear_protocol()` sets -1. -/
theorem C83_protocol (env : ParseEnv) (p : Parser) :
    (∀ n, Parser.setProtocol n p
      = if n = IPPROTO_IP ∨ n = IPPROTO_TCP ∨ n = IPPROTO_UDP then ({ p with config := { p.config with protocol := n } }, .ok ())
        else (p, .throw .invalidArgument))
    ∧ (∀ s n, env.getprotobyname (cstr s) = some n → Parser.setProtocolStr env s p = ({ p with config := { p.config with protocol := n } }, .ok ()))
    ∧ (∀ s, env.getprotobyname (cstr s) = none → Parser.setProtocolStr env s p = (p, .throw .invalidArgument))
    ∧ Parser.clearProtocol p = ({ p with config := { p.config with protocol := -1 } }, .ok ()) := by
  refine ⟨fun n => ?_, fun s n h => ?_, fun s h => ?_, rfl⟩
  · unfold Parser.setProtocol
    split <;> rfl
  · rw [Parser.setProtocolStr, h]
    rfl
  · rw [Parser.setProtocolStr, h]
    rfl

theorem both_first (s : BitVec 64) :
    s &&& (SORT_IPV6_FIRST ||| SORT_IPV4_FIRST) = SORT_IPV6_FIRST ||| SORT_IPV4_FIRST
      ↔ s &&& SORT_IPV4_FIRST ≠ 0 ∧ s &&& SORT_IPV6_FIRST ≠ 0 := by
  have e1 : s &&& SORT_IPV4_FIRST = (s &&& 3) &&& SORT_IPV4_FIRST := by rw [BitVec.and_assoc]; rfl
  have e2 : s &&& SORT_IPV6_FIRST = (s &&& 3) &&& SORT_IPV6_FIRST := by rw [BitVec.and_assoc]; rfl
  have e3 : SORT_IPV6_FIRST ||| SORT_IPV4_FIRST = 3 := by decide
  rw [e1, e2, e3]
  have hw : (s &&& 3).toNat = s.toNat % 4 := by
    rw [BitVec.toNat_and]
    exact Nat.and_two_pow_sub_one_eq_mod s.toNat 2
  generalize s &&& 3 = w at hw
  have hw' : w = BitVec.ofNat 64 w.toNat := by simp
  have hlt : w.toNat < 4 := by omega
  rw [hw']
  generalize w.toNat = k at hlt
  revert hlt
  have : ∀ k < 4, BitVec.ofNat 64 k = 3 ↔ BitVec.ofNat 64 k &&& SORT_IPV4_FIRST ≠ 0 ∧ BitVec.ofNat 64 k &&& SORT_IPV6_FIRST ≠ 0 := by decide
  exact this k

/-- C83: `set_sort_order()` sets what it is given, unless both families are to be first. -/
theorem C83_sort (p : Parser) (s : BitVec 64) :
    Parser.setSortOrder s p
      = if s &&& SORT_IPV4_FIRST ≠ 0 ∧ s &&& SORT_IPV6_FIRST ≠ 0 then (p, .throw .invalidArgument)
        else ({ p with config := { p.config with sort := s } }, .ok ()) := by
  unfold Parser.setSortOrder
  by_cases h : s &&& SORT_IPV4_FIRST ≠ 0 ∧ s &&& SORT_IPV6_FIRST ≠ 0
  · rw [if_pos h, if_pos ((both_first s).2 h)]
    rfl
  · rw [if_neg h, if_neg (fun h' => h ((both_first s).1 h'))]
    rfl

/-- The options are among those documented. -/
structure Documented (p : Parser) : Prop where
  port : -1 ≤ p.config.defaultPort ∧ p.config.defaultPort ≤ 65535
  sort : p.config.sort &&& SORT_IPV4_FIRST = 0 ∨ p.config.sort &&& SORT_IPV6_FIRST = 0

/-- C83: after any history of calls, the default port is -1 or a port, and the families are not both first. -/
theorem C83_history (h : List (ParseEnv × ParserOp)) : Documented (ParserOp.runAll h Parser.create) := by
  have step : ∀ (env : ParseEnv) (op : ParserOp) (p : Parser), Documented p → Documented (op.run env p) := by
    intro env op p hp
    have same : ∀ q : Parser, q.config.defaultPort = p.config.defaultPort → q.config.sort = p.config.sort → Documented q :=
      fun q h1 h2 => ⟨by rw [h1]; exact hp.port, by rw [h2]; exact hp.sort⟩
    have hport : ∀ n, Documented (Parser.setDefaultPort n p).1 := by
      intro n
      rw [C83_port]
      split
      · rename_i h
        exact ⟨h, hp.sort⟩
      · exact hp
    cases op with
    | setAllow n b =>
      simp only [ParserOp.run, Parser.setAllow]
      cases Allow.ofInt n with
      | none => exact hp
      | some f => cases b <;> cases f <;> exact same _ rfl rfl
    | setDefaultAddress a =>
      simp only [ParserOp.run, Parser.setDefaultAddress, PM.config_bind]
      repeat' split
      all_goals exact same _ rfl rfl
    | setDefaultPort n => exact hport n
    | setDefaultPortStr s =>
      simp only [ParserOp.run, Parser.setDefaultPortStr]
      split
      · exact hport _
      · cases env.convert s with
        | none => exact hp
        | some n => exact hport _
    | setDefaultMask m =>
      simp only [ParserOp.run, Parser.setDefaultMask, PM.config_bind]
      cases env.convert m <;> dsimp only
      repeat' split
      all_goals exact same _ rfl rfl
    | setProtocol n =>
      simp only [ParserOp.run, Parser.setProtocol]
      split <;> exact same _ rfl rfl
    | setProtocolStr s =>
      simp only [ParserOp.run, Parser.setProtocolStr]
      cases env.getprotobyname (cstr s) <;> exact same _ rfl rfl
    | clearProtocol => exact same _ rfl rfl
    | setSortOrder s =>
      simp only [ParserOp.run, C83_sort]
      split
      · exact hp
      · rename_i h
        refine ⟨hp.port, ?_⟩
        show s &&& SORT_IPV4_FIRST = 0 ∨ s &&& SORT_IPV6_FIRST = 0
        by_cases h1 : s &&& SORT_IPV4_FIRST = 0
        · exact .inl h1
        · exact .inr (Classical.byContradiction fun h2 => h ⟨h1, h2⟩)
    | emitError m => exact same _ rfl rfl
    | clearErrors => exact same _ rfl rfl
    | parse inp => exact same _ (by simp only [ParserOp.run, parse_config]) (by simp only [ParserOp.run, parse_config])
  have key : ∀ p : Parser, Documented p → Documented (ParserOp.runAll h p) := by
    induction h with
    | nil => exact fun p hp => hp
    | cons x l ih =>
      rcases x with ⟨env, op⟩
      exact fun p hp => ih _ (step env op p hp)
  exact key _ ⟨by decide, by decide⟩

/-- The option which a call is about: 1 the default addresses, 2 the default port, 3 the default masks, 4 the protocol, 5 the sort
order, 6 the flags; 0 for the calls about none. -/
def about : ParserOp → Nat
  | .setDefaultAddress _ => 1
  | .setDefaultPort _ => 2
  | .setDefaultPortStr _ => 2
  | .setDefaultMask _ => 3
  | .setProtocol _ => 4
  | .setProtocolStr _ => 4
  | .clearProtocol => 4
  | .setSortOrder _ => 5
  | .setAllow _ _ => 6
  | _ => 0

/-- C83: calls about other options, and `parse()`, change no option. -/
theorem C83_independent (h : List (ParseEnv × ParserOp)) (p : Parser) :
    ((∀ x ∈ h, about x.2 ≠ 1) → (ParserOp.runAll h p).config.defaultAddress4 = p.config.defaultAddress4
      ∧ (ParserOp.runAll h p).config.defaultAddress6 = p.config.defaultAddress6)
    ∧ ((∀ x ∈ h, about x.2 ≠ 2) → (ParserOp.runAll h p).config.defaultPort = p.config.defaultPort)
    ∧ ((∀ x ∈ h, about x.2 ≠ 3) → (ParserOp.runAll h p).config.defaultMask4 = p.config.defaultMask4
      ∧ (ParserOp.runAll h p).config.defaultMask6 = p.config.defaultMask6)
    ∧ ((∀ x ∈ h, about x.2 ≠ 4) → (ParserOp.runAll h p).config.protocol = p.config.protocol)
    ∧ ((∀ x ∈ h, about x.2 ≠ 5) → (ParserOp.runAll h p).config.sort = p.config.sort)
    ∧ ((∀ x ∈ h, about x.2 ≠ 6) → (ParserOp.runAll h p).config.flags = p.config.flags) := by
  have step : ∀ (env : ParseEnv) (op : ParserOp) (p : Parser),
      (about op ≠ 1 → (op.run env p).config.defaultAddress4 = p.config.defaultAddress4
        ∧ (op.run env p).config.defaultAddress6 = p.config.defaultAddress6)
      ∧ (about op ≠ 2 → (op.run env p).config.defaultPort = p.config.defaultPort)
      ∧ (about op ≠ 3 → (op.run env p).config.defaultMask4 = p.config.defaultMask4
        ∧ (op.run env p).config.defaultMask6 = p.config.defaultMask6)
      ∧ (about op ≠ 4 → (op.run env p).config.protocol = p.config.protocol)
      ∧ (about op ≠ 5 → (op.run env p).config.sort = p.config.sort)
      ∧ (about op ≠ 6 → (op.run env p).config.flags = p.config.flags) := by
    intro env op p
    cases op with
    | setAllow n b =>
      simp only [ParserOp.run, Parser.setAllow, about]
      cases Allow.ofInt n with
      | none => simp [PM.throw]
      | some f => cases b <;> cases f <;> exact ⟨fun _ => ⟨rfl, rfl⟩, fun _ => rfl, fun _ => ⟨rfl, rfl⟩, fun _ => rfl, fun _ => rfl, fun h => absurd rfl h⟩
    | setDefaultAddress a =>
      simp only [ParserOp.run, Parser.setDefaultAddress, PM.config_bind]
      repeat' split
      all_goals exact ⟨fun h => absurd rfl h, fun _ => rfl, fun _ => ⟨rfl, rfl⟩, fun _ => rfl, fun _ => rfl, fun _ => rfl⟩
    | setDefaultPort n =>
      simp only [ParserOp.run, C83_port]
      split <;> exact ⟨fun _ => ⟨rfl, rfl⟩, fun h => absurd rfl h, fun _ => ⟨rfl, rfl⟩, fun _ => rfl, fun _ => rfl, fun _ => rfl⟩
    | setDefaultPortStr s =>
      simp only [ParserOp.run, Parser.setDefaultPortStr]
      cases env.convert s
      all_goals
        repeat' split
        all_goals first
          | exact ⟨fun _ => ⟨rfl, rfl⟩, fun h => absurd rfl h, fun _ => ⟨rfl, rfl⟩, fun _ => rfl, fun _ => rfl, fun _ => rfl⟩
          | (simp only [C83_port]; split <;> exact ⟨fun _ => ⟨rfl, rfl⟩, fun h => absurd rfl h, fun _ => ⟨rfl, rfl⟩, fun _ => rfl, fun _ => rfl, fun _ => rfl⟩)
    | setDefaultMask m =>
      simp only [ParserOp.run, Parser.setDefaultMask, PM.config_bind]
      cases env.convert m <;> dsimp only
      repeat' split
      all_goals exact ⟨fun _ => ⟨rfl, rfl⟩, fun _ => rfl, fun h => absurd rfl h, fun _ => rfl, fun _ => rfl, fun _ => rfl⟩
    | setProtocol n =>
      simp only [ParserOp.run, Parser.setProtocol]
      split <;> exact ⟨fun _ => ⟨rfl, rfl⟩, fun _ => rfl, fun _ => ⟨rfl, rfl⟩, fun h => absurd rfl h, fun _ => rfl, fun _ => rfl⟩
    | setProtocolStr s =>
      simp only [ParserOp.run, Parser.setProtocolStr]
      cases env.getprotobyname (cstr s) <;>
        exact ⟨fun _ => ⟨rfl, rfl⟩, fun _ => rfl, fun _ => ⟨rfl, rfl⟩, fun h => absurd rfl h, fun _ => rfl, fun _ => rfl⟩
    | clearProtocol => exact ⟨fun _ => ⟨rfl, rfl⟩, fun _ => rfl, fun _ => ⟨rfl, rfl⟩, fun h => absurd rfl h, fun _ => rfl, fun _ => rfl⟩
    | setSortOrder s =>
      simp only [ParserOp.run, C83_sort]
      split <;> exact ⟨fun _ => ⟨rfl, rfl⟩, fun _ => rfl, fun _ => ⟨rfl, rfl⟩, fun _ => rfl, fun h => absurd rfl h, fun _ => rfl⟩
    | emitError m => exact ⟨fun _ => ⟨rfl, rfl⟩, fun _ => rfl, fun _ => ⟨rfl, rfl⟩, fun _ => rfl, fun _ => rfl, fun _ => rfl⟩
    | clearErrors => exact ⟨fun _ => ⟨rfl, rfl⟩, fun _ => rfl, fun _ => ⟨rfl, rfl⟩, fun _ => rfl, fun _ => rfl, fun _ => rfl⟩
    | parse inp =>
      simp only [ParserOp.run, parse_config, and_self, implies_true]
  induction h generalizing p with
  | nil => exact ⟨fun _ => ⟨rfl, rfl⟩, fun _ => rfl, fun _ => ⟨rfl, rfl⟩, fun _ => rfl, fun _ => rfl, fun _ => rfl⟩
  | cons x l ih =>
    rcases x with ⟨env, op⟩
    obtain ⟨i1, i2, i3, i4, i5, i6⟩ := ih (op.run env p)
    obtain ⟨s1, s2, s3, s4, s5, s6⟩ := step env op p
    have cut : ∀ {k : Nat}, (∀ x ∈ (env, op) :: l, about x.2 ≠ k) → (∀ x ∈ l, about x.2 ≠ k) ∧ about op ≠ k :=
      fun h => ⟨fun x hx => h x (List.mem_cons_of_mem _ hx), h _ List.mem_cons_self⟩
    rw [ParserOp.runAll]
    refine ⟨fun h => ?_, fun h => ?_, fun h => ?_, fun h => ?_, fun h => ?_, fun h => ?_⟩
    · exact ⟨(i1 (cut h).1).1.trans (s1 (cut h).2).1, (i1 (cut h).1).2.trans (s1 (cut h).2).2⟩
    · exact (i2 (cut h).1).trans (s2 (cut h).2)
    · exact ⟨(i3 (cut h).1).1.trans (s3 (cut h).2).1, (i3 (cut h).1).2.trans (s3 (cut h).2).2⟩
    · exact (i4 (cut h).1).trans (s4 (cut h).2)
    · exact (i5 (cut h).1).trans (s5 (cut h).2)
    · exact (i6 (cut h).1).trans (s6 (cut h).2)

/-- The claim of C83 about ports as texts: numbers which are no port are refused, and only IP, TCP and UDP are protocols. -/
def C83_claim : Prop :=
  (∀ (env : ParseEnv) (p : Parser) (s : Str) (n : Int), s ≠ [] → env.convert s = some n → ¬ (-1 ≤ n ∧ n ≤ 65535) →
    Parser.setDefaultPortStr env s p = (p, .throw .invalidArgument))
  ∧ ∀ (env : ParseEnv) (p : Parser) (s : Str), (Parser.setProtocolStr env s p).2 = .ok () →
    (Parser.setProtocolStr env s p).1.config.protocol = IPPROTO_IP ∨ (Parser.setProtocolStr env s p).1.config.protocol = IPPROTO_TCP
      ∨ (Parser.setProtocolStr env s p).1.config.protocol = IPPROTO_UDP

/-- C83: "4294967376" is accepted as the default port 80. -/
theorem C83_port_text_fails :
    sampleEnv.convert "4294967376".toList = some 4294967376
      ∧ (Parser.setDefaultPortStr sampleEnv "4294967376".toList Parser.create).2 = .ok ()
      ∧ (Parser.setDefaultPortStr sampleEnv "4294967376".toList Parser.create).1.config.defaultPort = 80 := by
  refine ⟨?_, rfl, ?_⟩ <;> decide +kernel

/-- C83: a protocol which is neither IP, TCP nor UDP is accepted by its name. -/
theorem C83_protocol_text_fails :
    (Parser.setProtocolStr sampleEnv "icmp".toList Parser.create).2 = .ok ()
      ∧ (Parser.setProtocolStr sampleEnv "icmp".toList Parser.create).1.config.protocol = 1 := by
  refine ⟨rfl, ?_⟩
  decide +kernel

theorem C83_claim_fails : ¬ C83_claim := by
  intro h
  have h1 := h.1 sampleEnv Parser.create "4294967376".toList 4294967376 (by decide) C83_port_text_fails.1 (by decide)
  have h2 := C83_port_text_fails.2.1
  rw [h1] at h2
  cases h2

/-! ### Examples -/

example : MaskFor sampleEnv "[ffff::]".toList true "ffff::".toList ∧ MaskFor sampleEnv "48".toList true "48".toList
    ∧ MaskFor sampleEnv "16".toList false "16".toList :=
  ⟨.bracket "ffff::".toList, .number (n := 48) (by decide) (by unfold EndBracket; decide) (by decide) (by decide) (by decide) (by decide),
    .number (n := 16) (by decide) (by unfold EndBracket; decide) (by decide) (by decide) (by decide) (by decide)⟩

/-- A mask which is refused. -/
example : "129".toList ≠ [] ∧ ∀ v6 a, ¬ MaskFor sampleEnv "129".toList v6 a := by
  refine ⟨by decide, fun v6 a h => ?_⟩
  have := (C83_mask sampleEnv sampleParser "129".toList).2.1 v6 a h
  have h2 : (Parser.setDefaultMask sampleEnv "129".toList sampleParser).2 = .throw .invalidArgument := by decide +kernel
  rw [this] at h2
  cases h2

example : AddressFor "::1".toList true "::1".toList := .colon (by decide) (by decide)

example : sampleEnv.convert "80".toList = some 80 := by decide

end Verif
