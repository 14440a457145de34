import Verif.Lemmas.InetGrammar
import Verif.SpecEntry
import Verif.Lemmas.ParserPrint
import Verif.Lemmas.Unix

/-!
# Lemmas: the entries which the parser accepts without lookups
-/

namespace Verif.Parser

open Spec Inet

/-! ### The texts of addresses -/

theorem ip_mapped (b : Bytes4) : ip (mapped b) = 0xFFFF00000000 + ip4 b := by
  show value [0, 0, 0, 0, 0, 0, 0, 0, 0, 0, 0xFF, 0xFF, b[0], b[1], b[2], b[3]] = 0xFFFF00000000 + value b.toList
  rw [bytes4_list]
  simp only [value_cons, value_nil, List.length_cons, List.length_nil]
  have h1 : (0xFF : Byte).toNat = 255 := rfl
  have h0 : (0 : Byte).toNat = 0 := rfl
  rw [h1, h0]
  omega

theorem last_colons {t : Str} {ws : List Nat} (h : LastGroups t ws) : ws.length ≤ t.count ':' + 2 := by
  induction h with
  | one _ => simp
  | dots _ => simp
  | cons _ _ ih =>
    rw [List.count_append, List.count_cons_self, List.length_cons]
    omega

theorem text_colons {t : Str} {ws : List Nat} (h : IPv6Text t ws) : 2 ≤ t.count ':' := by
  cases h with
  | full h hl =>
    have := last_colons h
    omega
  | zip _ _ _ _ =>
    rw [List.count_append, List.count_append, show "::".toList.count ':' = 2 by decide]
    omega

/-- The characters of addresses. -/
def textChars : Str := "0123456789abcdefABCDEF:.".toList

theorem hexDigit_char {c : Char} {d : Nat} (h : HexDigit c d) : c ∈ textChars := by
  rcases h with h | h
  · exact (by decide : ∀ c ∈ "0123456789abcdef".toList, c ∈ textChars) c (List.mem_of_getElem? h)
  · exact (by decide : ∀ c ∈ "0123456789ABCDEF".toList, c ∈ textChars) c (List.mem_of_getElem? h)

theorem hexNum_chars {t : Str} {w : Nat} (h : HexNum t w) : ∀ c ∈ t, c ∈ textChars := by
  induction h with
  | nil => intro c hc; cases hc
  | snoc _ hd ih =>
    intro c hc
    rcases List.mem_append.1 hc with hc | hc
    · exact ih c hc
    · rw [List.mem_singleton] at hc
      subst hc
      exact hexDigit_char hd

theorem dotted_chars {v : Nat} (h : v < 2 ^ 32) : ∀ c ∈ dotted v, c ∈ textChars := by
  obtain ⟨b, e, _⟩ := dotted_bytes h
  intro c hc
  rw [e] at hc
  exact (by decide : ∀ c ∈ "0123456789.".toList, c ∈ textChars) c (ntop4_chars b c hc)

theorem groups_text {t : Str} {ws : List Nat} (h : Groups t ws) : ∀ c ∈ t, c ∈ textChars := by
  induction h with
  | one h => exact hexNum_chars h.1
  | cons h _ ih =>
    intro c hc
    rcases List.mem_append.1 hc with hc | hc
    · exact hexNum_chars h.1 c hc
    · rcases List.mem_cons.1 hc with rfl | hc
      · decide
      · exact ih c hc

theorem last_text {t : Str} {ws : List Nat} (h : LastGroups t ws) : ∀ c ∈ t, c ∈ textChars := by
  induction h with
  | one h => exact hexNum_chars h.1
  | dots h => exact dotted_chars h
  | cons h _ ih =>
    intro c hc
    rcases List.mem_append.1 hc with hc | hc
    · exact hexNum_chars h.1 c hc
    · rcases List.mem_cons.1 hc with rfl | hc
      · decide
      · exact ih c hc

theorem text_chars {t : Str} {ws : List Nat} (h : IPv6Text t ws) : ∀ c ∈ t, c ∈ textChars := by
  cases h with
  | full h _ => exact last_text h
  | zip hp hq _ _ =>
    intro c hc
    rw [List.mem_append, List.mem_append] at hc
    rcases hc with (hc | hc) | hc
    · rcases hp with ⟨rfl, _⟩ | hp
      · cases hc
      · exact groups_text hp c hc
    · exact (by decide : ∀ c ∈ "::".toList, c ∈ textChars) c hc
    · rcases hq with ⟨rfl, _⟩ | hq
      · cases hc
      · exact last_text hq c hc

theorem address_chars {t : Str} {n : Nat} (h : AddressOf t n) : ∀ c ∈ t, c ∈ textChars := by
  rcases h with ⟨v, hv, rfl, _⟩ | ⟨_, h⟩
  · exact dotted_chars hv
  · exact text_chars h

theorem address_ne {t : Str} {n : Nat} (h : AddressOf t n) : t ≠ [] := by
  rcases h with ⟨v, hv, rfl, _⟩ | ⟨_, h⟩
  · simp [dotted]
  · intro e
    have := text_colons h
    rw [e] at this
    simp at this

theorem address_cstr {t : Str} {n : Nat} (h : AddressOf t n) : cstr t = t :=
  cstr_noNul fun c hc e => absurd (address_chars h c hc) (by rw [e]; decide)

theorem address_colon {t : Str} {n : Nat} (h : AddressOf t n) : (':' ∉ t ∧ '.' ∈ t) ∨ 2 ≤ t.count ':' := by
  rcases h with ⟨v, hv, rfl, _⟩ | ⟨_, h⟩
  · refine .inl ⟨?_, by simp [dotted]⟩
    obtain ⟨b, e, _⟩ := dotted_bytes hv
    rw [e]
    exact colon_not_mem_ntop4 b
  · exact .inr (text_colons h)

/-- What `inet_pton()` reads is what the texts write. -/
theorem writes_iff {t : Str} (hc : cstr t = t) (b : Bytes16) : Writes t b ↔ AddressOf t (ip b) := by
  unfold Writes
  rw [hc]
  constructor
  · rintro (⟨b4, h1, rfl⟩ | ⟨_, h2⟩)
    · have := (pton4_iff _ _).1 h1
      rw [ntop4_dotted] at this
      refine .inl ⟨ip4 b4, ?_, this, ip_mapped b4⟩
      have := value_lt b4.toList
      rw [Vector.length_toList] at this
      exact this
    · exact .inr ⟨ip_lt b, (pton6_iff _ _).1 h2⟩
  · rintro (⟨v, hv, rfl, he⟩ | ⟨_, h⟩)
    · obtain ⟨b4, e, e2⟩ := dotted_bytes hv
      rw [e]
      refine .inl ⟨b4, pton4_ntop4 b4, ip_inj ?_⟩
      rw [he, ip_mapped, ip4, e2]
      have hw : groupBytes [v / 65536, v % 65536] = [BitVec.ofNat 8 (v / 65536 / 256), BitVec.ofNat 8 (v / 65536), BitVec.ofNat 8 (v % 65536 / 256), BitVec.ofNat 8 (v % 65536)] := rfl
      rw [hw]
      simp only [value_cons, value_nil, BitVec.toNat_ofNat, List.length_cons, List.length_nil]
      omega
    · refine .inr ⟨pton4_colon ?_, (pton6_iff _ _).2 h⟩
      have := text_colons h
      exact List.count_pos_iff.1 (by omega)

theorem address_bytes {t : Str} {n : Nat} (h : AddressOf t n) : ∃ b : Bytes16, ip b = n ∧ Writes t b := by
  have hn : n < 2 ^ 128 := by
    rcases h with ⟨v, hv, _, rfl⟩ | ⟨h, _⟩
    · omega
    · exact h
  obtain ⟨b, hb⟩ : ∃ b : Bytes16, ip b = n := by
    refine ⟨(Addr.default.ipFromUint128 (BitVec.ofNat 128 n)).bytes, ?_⟩
    rw [ip_fromUint, BitVec.toNat_ofNat, Nat.mod_eq_of_lt hn]
  exact ⟨b, hb, (writes_iff (address_cstr h) b).2 (hb ▸ h)⟩

theorem address_readable {t : Str} {n : Nat} (h : AddressOf t n) : ∃ b : Bytes16, ip b = n ∧ Readable t b := by
  obtain ⟨b, hb, hw⟩ := address_bytes h
  exact ⟨b, hb, address_ne h, address_cstr h, fun hc => absurd (address_chars h _ hc) (by decide), hw⟩

/-! ### One address and one port -/

theorem intStr_nonempty (n : Int) : intStr n ≠ [] := by
  unfold intStr
  split
  · exact List.cons_ne_nil _ _
  · rw [decStr_dec]; exact Nat.toDigits_ne_nil

theorem portOf_given {env : ParseEnv} {c : Config} {q : Str} {n : Nat} (h : PortOf env c q n) : n ≤ 65535 ∧ PortGiven env c q n := by
  obtain ⟨h1, h2⟩ := h
  refine ⟨h1, ?_⟩
  by_cases hq : q ≠ []
  · rw [if_pos hq] at h2
    exact .inl ⟨hq, h2.2, h2.1⟩
  · rw [if_neg hq] at h2
    refine .inr ⟨Classical.not_not.1 hq, h2.1, ?_⟩
    obtain ⟨_, h2⟩ := h2
    by_cases hd : c.defaultPort = -1
    · rw [if_pos hd] at h2
      exact .inl ⟨hd, h2⟩
    · rw [if_neg hd] at h2
      exact .inr ⟨hd, intStr_nonempty _, h2.2, h2.1⟩

/-- The texts of an address and of a port which are accepted. -/
def Accepts (env : ParseEnv) (c : Config) (u q : Str) : Prop := ∃ n port, AddressOf u n ∧ PortOf env c q port

/-- One error, and no range. -/
def Refuses (m : PM (List Range)) (p : Parser) : Prop := ∃ msg, m p = (emitAll [msg] p, .ok [])

theorem refuses_error (msg : Str) (p : Parser) : Refuses (emitError msg >>= fun _ => pure []) p := by
  refine ⟨msg, ?_⟩
  rw [PM.bind_def, emitError_apply]
  rfl

section
variable {env : ParseEnv} {p : Parser}

theorem numericAddress_refuses {u : Str} (hc : cstr u = u) (h : ¬ ∃ n, AddressOf u n) (port : Int) (d : Bool) :
    Refuses (numericAddress u port d []) p := by
  have h4 : pton4 u = none := by
    cases h' : pton4 u with
    | none => rfl
    | some b => exact absurd ⟨_, (writes_iff hc (mapped b)).1 (.inl ⟨b, by rw [hc]; exact h', rfl⟩)⟩ h
  have h6 : pton6 u = none := by
    cases h' : pton6 u with
    | none => rfl
    | some b => exact absurd ⟨_, (writes_iff hc b).1 (.inr ⟨by rw [hc]; exact h4, by rw [hc]; exact h'⟩)⟩ h
  unfold Refuses
  rw [numericAddress, PM.config_bind, hc, h4, h6]
  exact refuses_error _ p

theorem noLookup_refuses {u q : Str} (hc : cstr u = u) (d : Bool)
    (h : ¬ ∃ n port : Nat, AddressOf u n ∧ port ≤ 65535 ∧
      if p.config.flags .requiredPort = true ∨ q ≠ [] then
        (p.config.flags .port = true ∨ p.config.flags .requiredPort = true) ∧ env.convert q = some (port : Int)
      else port = 0) :
    Refuses (noLookupAddress env u q d []) p := by
  have e1 : noLookupAddress env u q d [] p =
      (if (p.config.flags .requiredPort || decide (q ≠ [])) = true then
        match env.convert q with
        | none => do
          emitError ("invalid port in \"".toList ++ q ++ "\" (no service name lookup allowed).".toList)
          return []
        | some n =>
          if n < 0 ∨ n > 65535 then do
            emitError ("invalid port in \"".toList ++ q ++ "\" (no service name lookup allowed).".toList)
            return []
          else if (!p.config.flags .port && !p.config.flags .requiredPort) = true then do
            emitError ("Found a port (\"".toList ++ q ++ "\") when it is not allowed.".toList)
            return []
          else numericAddress u n d []
      else numericAddress u 0 d [] : PM (List Range)) p := rfl
  unfold Refuses
  rw [e1]
  by_cases hr : p.config.flags .requiredPort = true ∨ q ≠ []
  · rw [if_pos (by rcases hr with hr | hr <;> simp [hr])]
    simp only [if_pos hr] at h
    cases hv : env.convert q with
    | none => exact refuses_error _ p
    | some n =>
      dsimp only
      by_cases hn : n < 0 ∨ n > 65535
      · rw [if_pos hn]
        exact refuses_error _ p
      · rw [if_neg hn]
        by_cases hf : (!p.config.flags .port && !p.config.flags .requiredPort) = true
        · rw [if_pos hf]
          exact refuses_error _ p
        · rw [if_neg hf]
          refine numericAddress_refuses hc ?_ _ _
          rintro ⟨m, hm⟩
          refine h ⟨m, n.toNat, hm, by omega, ?_, ?_⟩
          · cases h1 : p.config.flags .port with
            | true => exact .inl rfl
            | false =>
              cases h2 : p.config.flags .requiredPort with
              | true => exact .inr rfl
              | false => rw [h1, h2] at hf; exact absurd rfl hf
          · rw [hv, Int.toNat_of_nonneg (by omega)]
  · rw [if_neg (by simpa using hr)]
    simp only [if_neg hr] at h
    refine numericAddress_refuses hc ?_ _ _
    rintro ⟨m, hm⟩
    exact h ⟨m, 0, hm, by omega, rfl⟩

theorem parseAddressPort_refuses (hl : p.config.flags .addressLookup = false) {u q : Str} (hu : '\x00' ∉ u)
    (hne : u ≠ [] ∨ p.config.flags .requiredAddress = true) (h : ¬ Accepts env p.config u q) (v6 : Bool) :
    Refuses (parseAddressPort env u q [] v6) p := by
  have hc : cstr u = u := cstr_noNul fun c hc e => hu (e ▸ hc)
  unfold Refuses
  rw [parseAddressPort, PM.config_bind]
  dsimp only
  by_cases h1 : (!decide (q ≠ []) && p.config.flags .requiredPort) = true
  · rw [if_pos h1]
    exact refuses_error _ p
  · rw [if_neg h1]
    by_cases h2 : (decide (u = []) && p.config.flags .requiredAddress) = true
    · rw [if_pos h2]
      exact refuses_error _ p
    · rw [if_neg h2]
      have hu0 : u ≠ [] := by
        rcases hne with hne | hne
        · exact hne
        · intro h3
          exact h2 (by rw [h3, hne]; rfl)
      rw [if_neg hu0, hl, if_neg Bool.false_ne_true]
      refine noLookup_refuses hc _ ?_
      rintro ⟨n, port, ha, hle, hp⟩
      refine h ⟨n, port, ha, hle, ?_⟩
      by_cases hq : q ≠ []
      · rw [if_pos hq]
        have e : (if (!decide (q ≠ []) && decide (p.config.defaultPort ≠ -1)) = true then intStr p.config.defaultPort else q) = q :=
          if_neg (by simp [hq])
        rw [e, if_pos (.inr hq)] at hp
        exact hp
      · have hr : p.config.flags .requiredPort = false := by
          cases hr : p.config.flags .requiredPort with
          | false => rfl
          | true => exact absurd (by rw [hr, decide_eq_false hq]; rfl) h1
        have hq0 := Classical.not_not.1 hq
        rw [if_neg hq]
        refine ⟨hr, ?_⟩
        by_cases hd : p.config.defaultPort = -1
        · rw [if_pos hd]
          have e : (if (!decide (q ≠ []) && decide (p.config.defaultPort ≠ -1)) = true then intStr p.config.defaultPort else q) = q :=
            if_neg (by simp [hd])
          rw [e, if_neg (by rw [hr]; rintro (h | h); cases h; exact hq h)] at hp
          exact hp
        · rw [if_neg hd]
          have e : (if (!decide (q ≠ []) && decide (p.config.defaultPort ≠ -1)) = true then intStr p.config.defaultPort else q)
              = intStr p.config.defaultPort := if_pos (by simp [hd, hq0])
          rw [e, if_pos (.inr (intStr_nonempty _)), hr] at hp
          exact ⟨hp.1.resolve_right Bool.false_ne_true, hp.2⟩

/-! ### The pieces of an entry -/

theorem parseAddressRangePort_plain {u : Str} (h : p.config.flags .addressRange = false ∨ '-' ∉ u) (q : Str) (v6 : Bool) :
    parseAddressRangePort env u q [] v6 p = parseAddressPort env u q [] v6 p := by
  rcases h with h | h
  · rw [parseAddressRangePort, PM.config_bind, h]
    rfl
  · exact parseAddressRangePort_written h q v6

/-- Ports are allowed. -/
def Ports (c : Config) : Prop := c.flags .port = true ∨ c.flags .requiredPort = true

theorem ports_or {c : Config} : (c.flags .port || c.flags .requiredPort) = true ↔ Ports c := by
  rw [Bool.or_eq_true]
  rfl

theorem ports_not {c : Config} : (!c.flags .port && !c.flags .requiredPort) = true ↔ ¬ Ports c := by
  rw [Ports]
  cases c.flags .port <;> cases c.flags .requiredPort <;> simp

theorem accepts_ports {c : Config} {u q : Str} (h : Accepts env c u q) (hq : q ≠ []) : Ports c := by
  obtain ⟨_, _, _, _, h⟩ := h
  rw [if_pos hq] at h
  exact h.1

/-- The function which reads the entry. -/
theorem parseAddress_dispatch (env : ParseEnv) (p : Parser) (t : Str) :
    ∃ v4 : Bool, (v4 = true → t.count ':' < 2 ∧ t.head? ≠ some '[')
      ∧ (v4 = false → t.count ':' = 1 → t.head? ≠ some ':' → t.head? ≠ some '[' →
          ']' ∈ t ∨ (¬ Ports p.config ∧ '.' ∉ ((splitFirst ':' t).getD ([], [])).1))
      ∧ parseAddress env t [] [] p
        = ((if v4 then parseAddress4 env t [] else parseAddress6 env t (t.count ':') [])
            >>= fun l => (Pure.pure (v4, l) : PM (Bool × List Range))) p := by
  by_cases h : t ≠ [] ∧ (2 ≤ t.count ':' ∨ t.head? ≠ some ':')
  · refine ⟨asIpv4 p.config t, ?_, ?_, parseAddress_eq env t [] [] p h⟩
    · intro hv
      rw [asIpv4] at hv
      by_cases h1 : t.count ':' ≥ 2
      · rw [if_pos h1] at hv
        cases hv
      · refine ⟨by omega, fun h2 => ?_⟩
        rw [if_neg h1, if_pos (.inl h2)] at hv
        cases hv
    · intro hv h1 h2 h3
      rw [asIpv4, if_neg (by omega)] at hv
      by_cases h4 : t.head? = some '[' ∨ ']' ∈ t
      · exact .inl (h4.resolve_left h3)
      · rw [if_neg h4] at hv
        by_cases h5 : (!p.config.flags .port && !p.config.flags .requiredPort) = true
        · rw [if_pos h5] at hv
          refine .inr ⟨ports_not.1 h5, ?_⟩
          cases h6 : splitFirst ':' t with
          | none => simp
          | some x =>
            simp only [h6] at hv
            exact of_decide_eq_false hv
        · rw [if_neg h5] at hv
          cases hv
  · have h1 : ¬ t.count ':' ≥ 2 := by
      intro h1
      refine h ⟨?_, .inl h1⟩
      rintro rfl
      simp at h1
    have h2 : t = [] ∨ t.head? = some ':' := by
      by_cases h3 : t = []
      · exact .inl h3
      · refine .inr (Classical.byContradiction fun h4 => h ⟨h3, .inr h4⟩)
    have h3 : parseAddress env t [] [] p
        = ((if p.config.defaultAddress4 = [] ∧ p.config.defaultAddress6 ≠ []
            then parseAddress6 env t (t.count ':') [] >>= fun l => (Pure.pure (false, l) : PM (Bool × List Range))
            else parseAddress4 env t [] >>= fun l => (Pure.pure (true, l) : PM (Bool × List Range)))) p := by
      rw [parseAddress, PM.config_bind, if_neg h1, if_pos h2, if_neg (by simp)]
    by_cases h4 : p.config.defaultAddress4 = [] ∧ p.config.defaultAddress6 ≠ []
    · refine ⟨false, (fun h => nomatch h), ?_, by rw [h3, if_pos h4]; rfl⟩
      intro _ h5 h6 _
      rcases h2 with h2 | h2
      · rw [h2] at h5
        simp at h5
      · exact absurd h2 h6
    · refine ⟨true, fun _ => ⟨by omega, fun h5 => ?_⟩, (fun h => nomatch h), by rw [h3, if_neg h4]; rfl⟩
      rcases h2 with h2 | h2 <;> rw [h2] at h5 <;> cases h5

/-- The outcome of one of the two functions: it refuses the entry, or reads an address and a port from it. -/
def Outcome (env : ParseEnv) (m : PM (List Range)) (p : Parser) (t : Str) : Prop :=
  Refuses m p ∨ ∃ u q v6, m p = parseAddressRangePort env u q [] v6 p ∧ (u = [] → LeftOut t) ∧ (∀ c ∈ u, c ∈ t)
    ∧ (Entry (Ports p.config) t u q ∨ (¬ Ports p.config ∧ ':' ∉ u ∧ (q ≠ [] ∨ ']' ∈ u ∨ '.' ∉ u)))

theorem address4_outcome {t : Str} (hk : t.count ':' < 2) : Outcome env (parseAddress4 env t []) p t := by
  unfold Outcome Refuses
  rw [parseAddress4, PM.config_bind]
  cases hs : splitFirst ':' t with
  | none =>
    exact .inr ⟨t, [], false, rfl, (fun h => .inl h), (fun _ h => h), .inl (.bare4 (splitFirst_none.1 hs))⟩
  | some x =>
    obtain ⟨u, q⟩ := x
    obtain ⟨rfl, hu⟩ := splitFirst_some hs
    dsimp only
    by_cases hf : (p.config.flags .port || p.config.flags .requiredPort) = true
    · rw [if_pos hf]
      rw [List.count_append, List.count_cons_self] at hk
      refine .inr ⟨u, q, false, rfl, ?_,
        (fun c h => List.mem_append_left _ h), .inl (.port4 hu (List.count_eq_zero.1 (by omega)) (ports_or.1 hf))⟩
      rintro rfl
      refine .inr (.inl ⟨rfl, ?_⟩)
      simp only [List.nil_append, List.count_cons_self]
      omega
    · rw [if_neg hf]
      exact .inl (refuses_error _ p)

theorem address6_outcome {t : Str}
    (hk : t.count ':' = 1 → t.head? ≠ some ':' → t.head? ≠ some '[' →
          ']' ∈ t ∨ (¬ Ports p.config ∧ '.' ∉ ((splitFirst ':' t).getD ([], [])).1)) :
    Outcome env (parseAddress6 env t (t.count ':') []) p t := by
  unfold Outcome Refuses
  rw [parseAddress6, PM.config_bind]
  by_cases hb : t.head? = some '['
  · rw [if_pos hb]
    obtain ⟨s, rfl⟩ : ∃ s, t = '[' :: s := by
      cases t with
      | nil => cases hb
      | cons x s => exact ⟨s, by cases hb; rfl⟩
    have e : ('[' :: s).drop 1 = s := rfl
    rw [e]
    cases hs : splitFirst ']' s with
    | none => exact .inl (refuses_error _ p)
    | some x =>
      obtain ⟨u, q⟩ := x
      obtain ⟨rfl, hu⟩ := splitFirst_some hs
      have hm : ∀ c ∈ u, c ∈ '[' :: (u ++ ']' :: q) := fun c h => List.mem_cons_of_mem _ (List.mem_append_left _ h)
      have h0 : u = [] → LeftOut ('[' :: (u ++ ']' :: q)) := by
        rintro rfl
        exact .inr (.inr ⟨q, rfl⟩)
      cases q with
      | nil => exact .inr ⟨u, [], true, rfl, h0, hm, .inl .bracket⟩
      | cons x q =>
        dsimp only
        by_cases hx : x ≠ ':'
        · rw [if_pos hx]
          exact .inl (refuses_error _ p)
        · rw [if_neg hx]
          have hx := Classical.not_not.1 hx
          subst hx
          by_cases hf : (!p.config.flags .port && !p.config.flags .requiredPort) = true
          · rw [if_pos hf]
            exact .inl (refuses_error _ p)
          · rw [if_neg hf]
            exact .inr ⟨u, q, true, rfl, h0, hm, .inl (.port6 (Classical.byContradiction fun h => hf (ports_not.2 h)))⟩
  · rw [if_neg hb]
    by_cases h1 : t.count ':' = 1
    · rw [if_pos h1]
      cases hs : splitFirst ':' t with
      | none =>
        have := splitFirst_none.1 hs
        rw [List.count_eq_zero.2 this] at h1
        cases h1
      | some x =>
        obtain ⟨u, q⟩ := x
        obtain ⟨rfl, hu⟩ := splitFirst_some hs
        have hk := hk h1
        rw [List.count_append, List.count_cons_self] at h1
        have hq : ':' ∉ q := List.count_eq_zero.1 (by omega)
        refine .inr ⟨u, q, true, rfl, ?_, (fun c h => List.mem_append_left _ h), ?_⟩
        · rintro rfl
          refine .inr (.inl ⟨rfl, ?_⟩)
          simp only [List.nil_append, List.count_cons_self]
          omega
        · by_cases hf : Ports p.config
          · exact .inl (.port4 hu hq hf)
          · refine .inr ⟨hf, hu, ?_⟩
            by_cases hq0 : q = []
            · subst hq0
              refine .inr ?_
              cases u with
              | nil => exact .inr (fun h => nomatch h)
              | cons x u =>
                have h0 : (x :: u ++ [':']).head? ≠ some ':' := by
                  intro h
                  cases h
                  exact hu List.mem_cons_self
                rcases hk h0 hb with h | h
                · rw [List.mem_append, List.mem_singleton] at h
                  exact .inl (h.resolve_right (by decide))
                · rw [hs] at h
                  exact .inr h.2
            · exact .inl hq0
    · rw [if_neg h1]
      refine .inr ⟨t, [], true, rfl, (fun h => .inl h), (fun _ h => h), .inl ?_⟩
      by_cases h2 : 2 ≤ t.count ':'
      · exact .bare6 h2
      · exact .bare4 (List.count_eq_zero.1 (by omega))

theorem head_append {u : Str} (hu : u ≠ []) (x : Str) : (u ++ x).head? = u.head? := by
  cases u with
  | nil => exact absurd rfl hu
  | cons _ _ => rfl

/-- An entry is read as what it writes. -/
theorem entry_dispatch {t u q : Str} (he : Entry (Ports p.config) t u q) (hne : u ≠ []) (hb : u.head? ≠ some '[') (hr : ']' ∉ u) :
    ∃ v4 v6, parseAddress env t [] [] p
      = (parseAddressRangePort env u q [] v6 >>= fun l => (Pure.pure (v4, l) : PM (Bool × List Range))) p := by
  obtain ⟨v4, h1, _, h3⟩ := parseAddress_dispatch env p t
  have key : (∃ v6, (if v4 then parseAddress4 env t [] else parseAddress6 env t (t.count ':') []) p = parseAddressRangePort env u q [] v6 p) →
      ∃ v4 v6, parseAddress env t [] [] p
        = (parseAddressRangePort env u q [] v6 >>= fun l => (Pure.pure (v4, l) : PM (Bool × List Range))) p := by
    rintro ⟨v6, h⟩
    refine ⟨v4, v6, ?_⟩
    rw [h3, PM.bind_def, PM.bind_def, h]
  apply key
  have six (h : v4 = false) (m : PM (List Range)) (hm : ∃ v6, parseAddress6 env t (t.count ':') [] p = parseAddressRangePort env u q [] v6 p) :
      ∃ v6, (if v4 then m else parseAddress6 env t (t.count ':') []) p = parseAddressRangePort env u q [] v6 p := by
    rw [h, if_neg Bool.false_ne_true]
    exact hm
  cases he with
  | bare4 h =>
    cases v4 with
    | true =>
      refine ⟨false, ?_⟩
      rw [if_pos rfl, parseAddress4, PM.config_bind, splitFirst_none.2 h]
    | false =>
      refine six rfl _ ⟨true, ?_⟩
      rw [parseAddress6, PM.config_bind, if_neg hb, if_neg (by rw [List.count_eq_zero.2 h]; decide)]
  | port4 h hq hp =>
    cases v4 with
    | true =>
      refine ⟨false, ?_⟩
      rw [if_pos rfl, parseAddress4, PM.config_bind, splitFirst_append h]
      dsimp only
      rw [if_pos (ports_or.2 hp)]
    | false =>
      refine six rfl _ ⟨true, ?_⟩
      rw [parseAddress6, PM.config_bind, if_neg (by rw [head_append hne]; exact hb),
        if_pos (by rw [List.count_append, List.count_cons_self, List.count_eq_zero.2 h, List.count_eq_zero.2 hq]), splitFirst_append h]
  | bare6 h =>
    cases v4 with
    | true => exact absurd (h1 rfl).1 (by omega)
    | false =>
      refine six rfl _ ⟨true, ?_⟩
      rw [parseAddress6, PM.config_bind, if_neg hb, if_neg (by omega)]
  | bracket =>
    cases v4 with
    | true => exact absurd rfl (h1 rfl).2
    | false =>
      refine six rfl _ ⟨true, ?_⟩
      rw [parseAddress6, PM.config_bind, if_pos (show ('[' :: u ++ [']']).head? = some '[' from rfl)]
      have e : splitFirst ']' (('[' :: u ++ [']']).drop 1) = some (u, []) := splitFirst_append hr
      rw [e]
  | port6 hp =>
    cases v4 with
    | true => exact absurd rfl (h1 rfl).2
    | false =>
      refine six rfl _ ⟨true, ?_⟩
      rw [parseAddress6, PM.config_bind, if_pos (show ('[' :: u ++ ']' :: ':' :: q).head? = some '[' from rfl)]
      have e : splitFirst ']' (('[' :: u ++ ']' :: ':' :: q).drop 1) = some (u, ':' :: q) := splitFirst_append hr
      rw [e]
      have hf : ¬ (!p.config.flags .port && !p.config.flags .requiredPort) = true := fun h => ports_not.1 h hp
      have e2 : ∀ x y z : PM (List Range), (if ':' ≠ ':' then x else
          if (!p.config.flags .port && !p.config.flags .requiredPort) = true then y else z) = z := fun x y z => by
        rw [if_neg (not_not_intro rfl), if_neg hf]
      exact (congrArg (fun m : PM (List Range) => m p = parseAddressRangePort env u q [] true p) (e2 _ _ _)).mpr rfl

/-- An entry with an address is read as such. -/
theorem entry_reads {t u q : Str} {n : Nat} (he : Entry (Ports p.config) t u q) (ha : AddressOf u n) :
    ∃ v4 v6, parseAddress env t [] [] p
      = (parseAddressPort env u q [] v6 >>= fun l => (Pure.pure (v4, l) : PM (Bool × List Range))) p := by
  have hc := address_chars ha
  obtain ⟨v4, v6, h⟩ := entry_dispatch (env := env) he (address_ne ha) (fun h => absurd (hc _ (List.mem_of_head? h)) (by decide))
    (fun h => absurd (hc _ h) (by decide))
  refine ⟨v4, v6, ?_⟩
  rw [h, PM.bind_def, PM.bind_def, parseAddressRangePort_plain (.inr fun h => absurd (hc _ h) (by decide))]

/-- An entry of the language is accepted. -/
theorem parseAddress_accepts (hp : Numeric p) {t u q : Str} {n port : Nat} (he : Entry (Ports p.config) t u q) (ha : AddressOf u n)
    (hq : PortOf env p.config q port) :
    ∃ v4 r b, parseAddress env t [] [] p = (p, .ok (v4, [r])) ∧ ip b = n ∧ Fresh r u b port (decide (q ≠ [])) := by
  obtain ⟨v4, v6, h⟩ := entry_reads (env := env) he ha
  obtain ⟨b, hb, hr⟩ := address_readable ha
  obtain ⟨hle, hg⟩ := portOf_given hq
  obtain ⟨r, h1, h2⟩ := parseAddressPort_fresh hp hr hle hg v6
  exact ⟨v4, r, b, by rw [h, PM.bind_of_ok h1]; rfl, hb, h2⟩

/-- What is not of the language is refused. -/
theorem outcome_refuses (hl : p.config.flags .addressLookup = false) {t : Str} (hnul : '\x00' ∉ t)
    (hd : p.config.flags .addressRange = false ∨ '-' ∉ t) (hne : p.config.flags .requiredAddress = true ∨ ¬ LeftOut t)
    (h : ¬ ∃ u q, Entry (Ports p.config) t u q ∧ Accepts env p.config u q) {m : PM (List Range)} (ho : Outcome env m p t) : Refuses m p := by
  rcases ho with ho | ⟨u, q, v6, e, h0, hm, ho⟩
  · exact ho
  · have := parseAddressPort_refuses (env := env) (q := q) hl (u := u) (fun h => hnul (hm _ h)) ?_ ?_ v6
    · obtain ⟨msg, this⟩ := this
      exact ⟨msg, (e.trans (parseAddressRangePort_plain (hd.imp_right fun h h' => h (hm _ h')) q v6)).trans this⟩
    · rcases hne with hne | hne
      · exact .inr hne
      · exact .inl fun h => hne (h0 h)
    · rcases ho with ho | ⟨hf, hu, ho⟩
      · exact fun ha => h ⟨u, q, ho, ha⟩
      · intro ha
        rcases ho with ho | ho | ho
        · exact hf (accepts_ports ha ho)
        · obtain ⟨_, _, ha, _⟩ := ha
          exact absurd (address_chars ha _ ho) (by decide)
        · obtain ⟨_, _, ha, _⟩ := ha
          rcases address_colon ha with h2 | h2
          · exact ho h2.2
          · rw [List.count_eq_zero.2 hu] at h2
            omega

/-- Any other entry is refused. -/
theorem parseAddress_refuses (hl : p.config.flags .addressLookup = false) {t : Str} (hnul : '\x00' ∉ t)
    (hd : p.config.flags .addressRange = false ∨ '-' ∉ t) (hne : p.config.flags .requiredAddress = true ∨ ¬ LeftOut t)
    (h : ¬ ∃ u q, Entry (Ports p.config) t u q ∧ Accepts env p.config u q) :
    ∃ v4 msg, parseAddress env t [] [] p = (emitAll [msg] p, .ok (v4, [])) := by
  obtain ⟨v4, h1, h2, h3⟩ := parseAddress_dispatch env p t
  have ho : Outcome env (if v4 then parseAddress4 env t [] else parseAddress6 env t (t.count ':') []) p t := by
    cases v4 with
    | true => exact address4_outcome (h1 rfl).1
    | false => exact address6_outcome (h2 rfl)
  obtain ⟨msg, hr⟩ := outcome_refuses hl hnul hd hne h ho
  refine ⟨v4, msg, ?_⟩
  rw [h3, PM.bind_def, hr]
  rfl

end

end Verif.Parser
