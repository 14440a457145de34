import Verif.Props.Language

/-!
# Property C81: texts without an address
-/

namespace Verif

open Spec

/-- The address of an entry which leaves its address out: after `[]`, the default IPv6 address or `::`; otherwise the default IPv4
address, else the default IPv6 address, else `0.0.0.0`. -/
def defaultText (c : Config) (t : Str) : Str :=
  if t.head? = some '[' then (if c.defaultAddress6 = [] then "::".toList else c.defaultAddress6)
  else if c.defaultAddress4 ≠ [] then c.defaultAddress4
  else if c.defaultAddress6 ≠ [] then c.defaultAddress6
  else "0.0.0.0".toList

/-- The entries without address, and their ports: nothing, `:port`, `[]` and `[]:port`; also, where ports are not allowed and the only
default is an IPv6 address, a colon alone. -/
def NoAddress (p : Parser) (t q : Str) : Prop :=
  Entry (PortsAllowed p) t [] q
    ∨ (t = [':'] ∧ q = [] ∧ ¬ PortsAllowed p ∧ p.config.defaultAddress4 = [] ∧ p.config.defaultAddress6 ≠ [])

namespace Parser

section
variable {env : ParseEnv} {p : Parser}

theorem parseAddress_leftOut (env : ParseEnv) (p : Parser) (t : Str) (h1 : t.count ':' < 2) (h2 : t = [] ∨ t.head? = some ':') :
    parseAddress env t [] [] p
      = ((if p.config.defaultAddress4 = [] ∧ p.config.defaultAddress6 ≠ []
          then parseAddress6 env t (t.count ':') [] >>= fun l => (Pure.pure (false, l) : PM (Bool × List Range))
          else parseAddress4 env t [] >>= fun l => (Pure.pure (true, l) : PM (Bool × List Range)))) p := by
  rw [parseAddress, PM.config_bind, if_neg (by omega), if_pos h2, if_neg (by simp)]

/-- The default address used by the function which reads one address. -/
def usedDefault (c : Config) (v6 : Bool) : Str :=
  if v6 then (if c.defaultAddress6 = [] then "::".toList else c.defaultAddress6)
  else (if c.defaultAddress4 = [] then "0.0.0.0".toList else c.defaultAddress4)

theorem usedDefault_ne (c : Config) (v6 : Bool) : usedDefault c v6 ≠ [] := by
  unfold usedDefault
  split <;> split
  · decide
  · assumption
  · decide
  · assumption

theorem parseAddressPort_nil (hr : p.config.flags .requiredAddress = false) (q : Str) (v6 : Bool) :
    parseAddressPort env [] q [] v6 p = parseAddressPort env (usedDefault p.config v6) q [] v6 p := by
  have hn := usedDefault_ne p.config v6
  rw [parseAddressPort, PM.config_bind, parseAddressPort, PM.config_bind]
  dsimp only
  rw [hr]
  simp only [Bool.and_false, if_neg hn, if_true]
  rfl

/-- What is read of an entry without address. -/
theorem leftOut_reads (hr : p.config.flags .requiredAddress = false) {t q : Str} (h : NoAddress p t q) :
    ∃ v4 v6, parseAddress env t [] [] p
      = (parseAddressPort env (defaultText p.config t) q [] v6 >>= fun l => (Pure.pure (v4, l) : PM (Bool × List Range))) p := by
  have hd : p.config.flags .addressRange = false ∨ '-' ∉ ([] : Str) := .inr (by simp)
  have key : ∀ {m : PM (List Range)} {v4 v6 : Bool}, parseAddress env t [] [] p = (m >>= fun l => (Pure.pure (v4, l) : PM (Bool × List Range))) p →
      m p = parseAddressPort env [] q [] v6 p → defaultText p.config t = usedDefault p.config v6 →
      ∃ v4 v6, parseAddress env t [] [] p
        = (parseAddressPort env (defaultText p.config t) q [] v6 >>= fun l => (Pure.pure (v4, l) : PM (Bool × List Range))) p := by
    intro m v4 v6 h1 h2 h3
    refine ⟨v4, v6, ?_⟩
    rw [h1, PM.bind_def, PM.bind_def, h2, h3, parseAddressPort_nil hr]
  by_cases hb : t.head? = some '['
  · have hdt : defaultText p.config t = usedDefault p.config true := by rw [defaultText, if_pos hb]; rfl
    obtain ⟨v4, h1, _, h3⟩ := parseAddress_dispatch env p t
    have hv : v4 = false := by
      cases v4 with
      | false => rfl
      | true => exact absurd hb (h1 rfl).2
    subst hv
    rw [if_neg Bool.false_ne_true] at h3
    refine key h3 ?_ hdt
    rcases h with h | ⟨rfl, _⟩
    · rw [parseAddress6, PM.config_bind, if_pos hb]
      cases h with
      | bare4 _ => cases hb
      | port4 _ _ _ => cases hb
      | bare6 h => simp at h
      | bracket => exact parseAddressRangePort_plain hd _ _
      | port6 hp =>
        have e : splitFirst ']' (('[' :: [] ++ ']' :: ':' :: q).drop 1) = some ([], ':' :: q) := splitFirst_append (by simp)
        rw [e]
        have hf : ¬ (!p.config.flags .port && !p.config.flags .requiredPort) = true := fun h => ports_not.1 h hp
        have e2 : ∀ x y z : PM (List Range), (if ':' ≠ ':' then x else
            if (!p.config.flags .port && !p.config.flags .requiredPort) = true then y else z) = z := fun x y z => by
          rw [if_neg (not_not_intro rfl), if_neg hf]
        refine (congrArg (fun m : PM (List Range) => m p = parseAddressPort env [] q [] true p) (e2 _ _ _)).mpr ?_
        exact parseAddressRangePort_plain hd _ _
    · cases hb
  · have hdt : defaultText p.config t = if p.config.defaultAddress4 = [] ∧ p.config.defaultAddress6 ≠ [] then usedDefault p.config true
        else usedDefault p.config false := by
      rw [defaultText, if_neg hb]
      by_cases h4 : p.config.defaultAddress4 = [] <;> by_cases h6 : p.config.defaultAddress6 = [] <;>
        simp [usedDefault, h4, h6]
    have shape : (t = [] ∧ q = []) ∨ (t = ':' :: q ∧ ':' ∉ q ∧ (PortsAllowed p ∨ (p.config.defaultAddress4 = [] ∧ p.config.defaultAddress6 ≠ []))) := by
      rcases h with h | ⟨h1, h2, _, h3⟩
      · cases h with
        | bare4 _ => exact .inl ⟨rfl, rfl⟩
        | port4 _ h1 h2 => exact .inr ⟨rfl, h1, .inl h2⟩
        | bare6 h => simp at h
        | bracket => exact absurd rfl hb
        | port6 _ => exact absurd rfl hb
      · exact .inr ⟨by rw [h1, h2], by rw [h2]; simp, .inr h3⟩
    rcases shape with ⟨rfl, rfl⟩ | ⟨rfl, hq, hp⟩
    · have h3 := parseAddress_leftOut env p [] (by simp) (.inl rfl)
      by_cases hc : p.config.defaultAddress4 = [] ∧ p.config.defaultAddress6 ≠ []
      · rw [if_pos hc] at h3 hdt
        refine key h3 ?_ hdt
        rw [parseAddress6, PM.config_bind, if_neg (by simp), if_neg (by simp)]
        exact parseAddressRangePort_plain hd _ _
      · rw [if_neg hc] at h3 hdt
        refine key h3 ?_ hdt
        rw [parseAddress4, PM.config_bind]
        exact parseAddressRangePort_plain hd _ _
    · have hk : (':' :: q).count ':' = 1 := by rw [List.count_cons_self, List.count_eq_zero.2 hq]
      have h3 := parseAddress_leftOut env p (':' :: q) (by omega) (.inr rfl)
      have hs : splitFirst ':' (':' :: q) = some ([], q) := splitFirst_append (a := []) (by simp)
      by_cases hc : p.config.defaultAddress4 = [] ∧ p.config.defaultAddress6 ≠ []
      · rw [if_pos hc] at h3 hdt
        refine key h3 ?_ hdt
        rw [parseAddress6, PM.config_bind, if_neg hb, if_pos hk, hs]
        exact parseAddressRangePort_plain hd _ _
      · rw [if_neg hc] at h3 hdt
        refine key h3 ?_ hdt
        rw [parseAddress4, PM.config_bind, hs]
        dsimp only
        rw [if_pos (ports_or.2 (hp.resolve_right hc))]
        exact parseAddressRangePort_plain hd _ _

theorem leftOut_accepts (hp : Numeric p) (hr : p.config.flags .requiredAddress = false) {t q : Str} {n port : Nat} (h : NoAddress p t q)
    (ha : AddressOf (defaultText p.config t) n) (hq : PortOf env p.config q port) :
    ∃ v4 r b, parseAddress env t [] [] p = (p, .ok (v4, [r])) ∧ ip b = n ∧ Fresh r (defaultText p.config t) b port (decide (q ≠ [])) := by
  obtain ⟨v4, v6, h⟩ := leftOut_reads (env := env) hr h
  obtain ⟨b, hb, hrd⟩ := address_readable ha
  obtain ⟨hle, hg⟩ := portOf_given hq
  obtain ⟨r, h1, h2⟩ := parseAddressPort_fresh hp hrd hle hg v6
  exact ⟨v4, r, b, by rw [h, PM.bind_of_ok h1]; rfl, hb, h2⟩

theorem leftOut_refuses (hl : p.config.flags .addressLookup = false) (hr : p.config.flags .requiredAddress = false) {t : Str}
    (hn4 : '\x00' ∉ p.config.defaultAddress4) (hn6 : '\x00' ∉ p.config.defaultAddress6) (ht : LeftOut t)
    (h : ¬ ∃ q, NoAddress p t q ∧ Accepts env p.config (defaultText p.config t) q) :
    ∃ v4 msg, parseAddress env t [] [] p = (emitAll [msg] p, .ok (v4, [])) := by
  have hnul : ∀ v6, '\x00' ∉ usedDefault p.config v6 := by
    intro v6
    unfold usedDefault
    split <;> split
    · decide
    · exact hn6
    · decide
    · exact hn4
  have hnd : '\x00' ∉ defaultText p.config t := by
    unfold defaultText
    repeat' split
    · decide
    · exact hn6
    · exact hn4
    · exact hn6
    · decide
  have hdne : defaultText p.config t ≠ [] := by
    unfold defaultText
    repeat' split
    · decide
    · assumption
    · assumption
    · assumption
    · decide
  have fin : ∀ {m : PM (List Range)} {v4 : Bool}, parseAddress env t [] [] p = (m >>= fun l => (Pure.pure (v4, l) : PM (Bool × List Range))) p →
      Refuses m p → ∃ v4 msg, parseAddress env t [] [] p = (emitAll [msg] p, .ok (v4, [])) := by
    rintro m v4 h1 ⟨msg, h2⟩
    refine ⟨v4, msg, ?_⟩
    rw [h1, PM.bind_def, h2]
    rfl
  have named : ∀ q, NoAddress p t q → ∃ v4 msg, parseAddress env t [] [] p = (emitAll [msg] p, .ok (v4, [])) := by
    intro q hq
    obtain ⟨v4, v6, h1⟩ := leftOut_reads (env := env) hr hq
    exact fin h1 (parseAddressPort_refuses hl hnd (.inl hdne) (fun ha => h ⟨q, hq, ha⟩) v6)
  rcases ht with rfl | ⟨hh, hk⟩ | ⟨s, rfl⟩
  · exact named [] (.inl (.bare4 (by simp)))
  · obtain ⟨q, rfl⟩ : ∃ q, t = ':' :: q := by
      cases t with
      | nil => cases hh
      | cons x q => exact ⟨q, by cases hh; rfl⟩
    rw [List.count_cons_self] at hk
    have hq : ':' ∉ q := List.count_eq_zero.1 (by omega)
    by_cases hp : PortsAllowed p
    · exact named q (.inl (.port4 (u := []) (by simp) hq hp))
    · have h3 := parseAddress_leftOut env p (':' :: q) (by rw [List.count_cons_self]; omega) (.inr rfl)
      have hs : splitFirst ':' (':' :: q) = some ([], q) := splitFirst_append (a := []) (by simp)
      by_cases hc : p.config.defaultAddress4 = [] ∧ p.config.defaultAddress6 ≠ []
      · by_cases hq0 : q = []
        · subst hq0
          exact named [] (.inr ⟨rfl, rfl, hp, hc⟩)
        · rw [if_pos hc] at h3
          refine fin h3 ?_
          have e : parseAddress6 env (':' :: q) ((':' :: q).count ':') [] p = parseAddressPort env (usedDefault p.config true) q [] true p := by
            rw [parseAddress6, PM.config_bind, if_neg (by simp), if_pos (by rw [List.count_cons_self]; omega), hs, ← parseAddressPort_nil hr]
            exact parseAddressRangePort_plain (.inr (by simp)) _ _
          obtain ⟨msg, h4⟩ := parseAddressPort_refuses (env := env) hl (hnul true) (.inl (usedDefault_ne _ _))
            (fun ha => hp (accepts_ports ha hq0)) true
          exact ⟨msg, e.trans h4⟩
      · rw [if_neg hc] at h3
        refine fin h3 ?_
        unfold Refuses
        rw [parseAddress4, PM.config_bind, hs]
        dsimp only
        rw [if_neg (fun h => hp (ports_or.1 h))]
        exact refuses_error _ p
  · have e0 : "[]".toList ++ s = '[' :: ([] ++ ']' :: s) := rfl
    rw [e0] at h fin named ⊢
    cases s with
    | nil => exact named [] (.inl .bracket)
    | cons x q =>
      by_cases hg : x = ':' ∧ PortsAllowed p
      · obtain ⟨rfl, hp⟩ := hg
        exact named q (.inl (.port6 hp))
      · obtain ⟨v4, h1, _, h3⟩ := parseAddress_dispatch env p ('[' :: ([] ++ ']' :: x :: q))
        have hv : v4 = false := by
          cases v4 with
          | false => rfl
          | true => exact absurd rfl (h1 rfl).2
        subst hv
        rw [if_neg Bool.false_ne_true] at h3
        refine fin h3 ?_
        unfold Refuses
        rw [parseAddress6, PM.config_bind, if_pos (show ('[' :: ([] ++ ']' :: x :: q)).head? = some '[' from rfl)]
        have e : splitFirst ']' (('[' :: ([] ++ ']' :: x :: q)).drop 1) = some ([], x :: q) := splitFirst_append (by simp)
        rw [e]
        dsimp only
        by_cases hx : x ≠ ':'
        · rw [if_pos hx]
          exact refuses_error _ p
        · rw [if_neg hx, if_pos (ports_not.2 fun hp => hg ⟨Classical.not_not.1 hx, hp⟩)]
          exact refuses_error _ p

end

end Parser

/-! ### C81 -/

/-- C81: a text without an address is read as the default address, with the port it writes. -/
theorem C81_default (env : ParseEnv) (p : Parser) (inp t q : Str) (n port : Nat) (h : ReadsOne p inp) (ht : Trims inp t)
    (hr : p.config.flags .requiredAddress = false) (hn : NoAddress p t q) (ha : AddressOf (defaultText p.config t) n)
    (hq : PortOf env p.config q port) :
    ∃ r, Parser.parse env inp p = (p, .ok [r]) ∧ r.hasFrom = true ∧ r.hasTo = false ∧ ip r.lo.getIpv6.addr = n ∧ r.lo.getPort = port
      ∧ ip r.lo.getMask = 2 ^ 128 - 1 ∧ r.lo.hostname = defaultText p.config t ∧ (r.lo.portDefined = true ↔ q ≠ []) := by
  obtain ⟨v4, r, b, h1, h2, h3⟩ := Parser.leftOut_accepts (env := env) ⟨h.lookup, h.protocol⟩ hr hn ha hq
  refine ⟨r, parse_readsOne h ht h1, h3.hasFrom, h3.hasTo, ?_, ?_, ?_, h3.hostname, by rw [h3.portDefined, decide_eq_true_eq]⟩
  · rw [Addr.getIpv6, h3.address]
    exact h2
  · rw [Addr.getPort, h3.address]
    show (swap16 (swap16 (BitVec.ofNat 16 port))).toNat = port
    rw [swap16_swap16, BitVec.toNat_ofNat, Nat.mod_eq_of_lt (by have := hq.1; omega)]
  · rw [Addr.getMask, h3.mask]
    decide

/-- C81: the other texts which leave the address out are refused. -/
theorem C81_refused (env : ParseEnv) (p : Parser) (inp t : Str) (h : ReadsOne p inp) (ht : Trims inp t) (hl : LeftOut t)
    (hr : p.config.flags .requiredAddress = false)
    (hn4 : '\x00' ∉ p.config.defaultAddress4) (hn6 : '\x00' ∉ p.config.defaultAddress6)
    (hno : ¬ ∃ q n port, NoAddress p t q ∧ AddressOf (defaultText p.config t) n ∧ PortOf env p.config q port) :
    ∃ p', Parser.parse env inp p = (p', .ok []) ∧ p'.config = p.config ∧ p'.getErrorCount = p.getErrorCount + 1
      ∧ p'.hasErrors = true ∧ p.errorMessages <+: p'.errorMessages := by
  obtain ⟨v4, msg, h1⟩ := Parser.leftOut_refuses (env := env) h.lookup hr hn4 hn6 hl
    (fun ⟨q, h1, n, port, h2, h3⟩ => hno ⟨q, n, port, h1, h2, h3⟩)
  refine ⟨_, parse_readsOne h ht h1, rfl, ?_, ?_, ?_⟩
  · simp [Parser.emitAll, Parser.getErrorCount]
  · simp [Parser.emitAll, Parser.hasErrors]
  · simp [Parser.emitAll, Parser.errorMessages, List.append_assoc]

theorem sortResult_nil (s : BitVec 64) : Parser.sortResult s [] = .ok [] := by
  have h : ∀ lt, Parser.stableSort lt [] = .ok [] := fun _ => rfl
  unfold Parser.sortResult
  simp only [h, Parser.mergeAll]
  repeat' split
  all_goals rfl

/-- C81: the empty text is skipped by a parser which reads lists of addresses. -/
theorem C81_empty_list (env : ParseEnv) (p : Parser) (hs : ∃ x, separates p x = true) : Parser.parse env [] p = (p, .ok []) := by
  have : Parser.separators p.config ≠ [] := by
    obtain ⟨x, hx⟩ := hs
    intro h
    rw [separates] at hx
    rw [Parser.separators] at h
    revert hx h
    cases p.config.flags .multiAddressesCommas <;> cases p.config.flags .multiAddressesSpaces <;>
      cases p.config.flags .multiAddressesNewlines <;> simp
  rw [Parser.parse_list env [] p this]
  show (p, Parser.sortResult p.config.sort []) = (p, .ok [])
  rw [sortResult_nil]

/-- C81: otherwise the empty text is read as a blank one. -/
theorem C81_empty_blank (env : ParseEnv) (p : Parser) (hs : ∀ x, separates p x = false) (hc : NoComments p) :
    Parser.parse env [] p = Parser.parse env [' '] p := by
  have h : Parser.separators p.config = [] := by
    have h1 := hs ','
    have h2 := hs ' '
    have h3 := hs '\n'
    rw [separates] at h1 h2 h3
    rw [Parser.separators]
    revert h1 h2 h3
    cases p.config.flags .multiAddressesCommas <;> cases p.config.flags .multiAddressesSpaces <;>
      cases p.config.flags .multiAddressesNewlines <;> simp
  have hc := (noComments_iff p).2 hc
  rw [Parser.parse_single env _ p h, Parser.parse_single env _ p h, PM.bind_def, PM.bind_def, Parser.parseSingle_plain env _ [] p hc,
    Parser.parseSingle_plain env _ [] p hc, Parser.parseCidr_trim env [] (a := []) (b := [' ']) (by decide)]

/-! ### Examples and the claims -/

/-- A parser which allows ports, with a default IPv6 address. -/
def defaultParser : Parser := ParserOp.runAll [(sampleEnv, .setDefaultAddress "[::1]".toList)] sampleParser

/-- `:123` is the default address and port 123. -/
example : ∃ r, Parser.parse sampleEnv ":123".toList defaultParser = (defaultParser, .ok [r]) ∧ ip r.lo.getIpv6.addr = 1
    ∧ r.lo.getPort = 123 := by
  obtain ⟨r, h1, _, _, h2, h3, _⟩ := C81_default sampleEnv defaultParser ":123".toList ":123".toList "123".toList 1 123
    ⟨by decide, by decide, .inl (by decide), by decide, ⟨by decide, fun x _ => by
      rw [separates, show defaultParser.config.flags .multiAddressesCommas = false by decide,
        show defaultParser.config.flags .multiAddressesSpaces = false by decide,
        show defaultParser.config.flags .multiAddressesNewlines = false by decide]
      rfl, ⟨by decide, by decide⟩⟩, by unfold Unsorted; decide⟩
    (trims_self (by decide) (by decide)) (by decide) (.inl (.port4 (u := []) (by decide) (by decide) (.inl (by decide))))
    (.inr ⟨by decide, .zip (p := []) (ps := []) (z := 7) (q := "1".toList) (qs := [1]) (.inl ⟨rfl, rfl⟩)
      (.inr (.one ⟨HexNum.snoc (t := []) (v := 0) (c := '1') (d := 1) .nil (.inl (by decide)), by decide, by decide⟩)) (by decide) (by decide)⟩)
    ⟨by decide, by rw [if_pos (by decide)]; exact ⟨.inl (by decide), by decide⟩⟩
  exact ⟨r, h1, h2, h3⟩

/-- C81, as stated: the empty text is skipped, and an address is mandatory when there is no default address. -/
def C81_claim : Prop :=
  (∀ (env : ParseEnv) (p : Parser), (Parser.parse env [] p).2 = .ok [])
    ∧ ∀ (env : ParseEnv) (p : Parser) (t q : Str), ReadsOne p t → NoAddress p t q → p.config.defaultAddress4 = [] →
        p.config.defaultAddress6 = [] → (Parser.parse env t p).2 = .ok []

/-- C81 is false as stated, in both respects: the empty text is `0.0.0.0` for a parser of one address, … -/
theorem C81_empty_claim_fails : ¬ ∀ (env : ParseEnv) (p : Parser), (Parser.parse env [] p).2 = .ok [] := by
  intro h
  have h1 : (match (Parser.parse sampleEnv [] sampleParser).2 with
    | .ok [r] => decide (r.lo.hostname = "0.0.0.0".toList)
    | _ => false) = true := by decide +kernel
  rw [h] at h1
  cases h1

/-- … and so is the address which is left out. -/
theorem C81_mandatory_claim_fails : ¬ ∀ (env : ParseEnv) (p : Parser) (t q : Str), ReadsOne p t → NoAddress p t q →
    p.config.defaultAddress4 = [] → p.config.defaultAddress6 = [] → (Parser.parse env t p).2 = .ok [] := by
  intro h
  have h1 : (match (Parser.parse sampleEnv ":80".toList sampleParser).2 with
    | .ok [r] => decide (r.lo.hostname = "0.0.0.0".toList)
    | _ => false) = true := by decide +kernel
  rw [h sampleEnv sampleParser ":80".toList "80".toList (sampleParser_reads _ (by decide))
    (.inl (.port4 (u := []) (by decide) (by decide) (.inl (by decide)))) (by decide) (by decide)] at h1
  cases h1

theorem C81_claim_fails : ¬ C81_claim := fun h => C81_empty_claim_fails h.1

end Verif
