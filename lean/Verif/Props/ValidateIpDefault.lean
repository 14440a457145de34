import Verif.Props.ValidateIpMask
import Verif.Props.ParserCount

/-!
# C74: `validate-ip --mask` and texts without a mask
-/

namespace Verif

open Spec Tools

namespace Parser

section
variable {env : ParseEnv} {c : Config}

/-- A mask which is not a number is an error when masks written as addresses are not allowed. -/
theorem cost_parseMask_refused (hmask : c.flags .addressMask = false) {mask : Str} (h0 : mask ≠ [])
    (hn : scanDigits 10000 (cstr mask) 0 = .notNumber) (a : Addr) (v4 : Bool) :
    Cost c (parseMask env mask a v4) fun n _ => n = 1 := by
  rw [parseMask, if_neg h0, hn]
  dsimp only
  refine cost_bind (R := fun n o => n = 1 ∧ o = none) ?_ fun n o hn => ?_
  · rw [addressMask]
    refine cost_config ?_
    rw [if_pos (by rw [hmask]; rfl)]
    exact cost_bind (cost_emit _) fun n _ hn => cost_pure ⟨by omega, rfl⟩
  · rw [hn.2]
    exact cost_pure (by omega)

theorem cost_maskLoop_refused (hmask : c.flags .addressMask = false) {mask : Str} {v4 : Bool} (h0 : chooseMask c mask v4 ≠ [])
    (hn : scanDigits 10000 (cstr (chooseMask c mask v4)) 0 = .notNumber) (l : List Range) :
    Cost c (maskLoop env mask v4 l) fun n _ => n = l.length := by
  induction l with
  | nil => exact cost_pure rfl
  | cons x l ih =>
    rw [maskLoop]
    refine cost_config (cost_bind (cost_parseMask_refused hmask h0 hn _ _) fun n a hn => ?_)
    refine cost_bind ih fun k l' hk => cost_pure ?_
    rw [List.length_cons]
    omega

/-- The default masks cannot be used. -/
def UnusableDefaults (c : Config) : Prop :=
  ∀ v4, chooseMask c [] v4 ≠ [] ∧ scanDigits 10000 (cstr (chooseMask c [] v4)) 0 = .notNumber

theorem cost_parseCidr_refused (henv : Trusted env c) (hm : c.flags .mask = true) (hmask : c.flags .addressMask = false)
    (hsort : c.sort &&& SORT_NO_EMPTY = 0) (hd : UnusableDefaults c) {s : Str} (hs : '/' ∉ s) :
    Cost c (parseCidr env s []) fun n _ => 1 ≤ n := by
  have hno : splitFirst '/' (trimString s) = none :=
    splitFirst_none.2 fun h => hs ((trimString_infix s).subset h)
  intro p hp
  rw [parseCidr_masked env s hm p hp, hno]
  simp only [Option.getD_none]
  refine cost_errorCountNow (Q := fun n _ => 1 ≤ n) (cost_parseAddress henv _ _) (fun n a ha => ?_) p hp
  refine cost_mono (cost_maskLoop_refused hmask (hd a.1).1 (hd a.1).2 a.2) fun k l hk => ⟨fun h0 => ?_, fun h0 => by omega⟩
  exfalso
  rcases ha with ha | ha | ha
  · exact ha.2.1 (List.eq_nil_of_length_eq_zero (by omega))
  · have := ha.1
    omega
  · exact ha.2.2 hsort

theorem cost_seqEntries_refused (henv : Trusted env c) (hm : c.flags .mask = true) (hmask : c.flags .addressMask = false)
    (hsort : c.sort &&& SORT_NO_EMPTY = 0) (hd : UnusableDefaults c) (es : List Str) (hs : ∀ e ∈ es, '/' ∉ e) :
    Cost c (seqEntries env es) fun n _ => es.length ≤ n := by
  induction es with
  | nil => exact cost_pure (Nat.le_refl _)
  | cons e es ih =>
    rw [seqEntries]
    refine cost_bind (cost_parseCidr_refused henv hm hmask hsort hd (hs e List.mem_cons_self)) fun n l hn => ?_
    refine cost_bind (ih fun x hx => hs x (List.mem_cons_of_mem _ hx)) fun k l' hk => cost_pure ?_
    rw [List.length_cons]
    omega

theorem substr_infix {s t : Str} {n m : Nat} (h : substr s n m = .ok t) : t <:+: s := by
  rw [substr] at h
  split at h
  · cases h
  · cases h
    exact (List.take_prefix _ _).isInfix.trans (List.drop_suffix _ _).isInfix

theorem cost_parseUnsorted_refused (henv : Trusted env c) (hm : c.flags .mask = true) (hmask : c.flags .addressMask = false)
    (hsort : c.sort &&& SORT_NO_EMPTY = 0) (hd : UnusableDefaults c) {s : Str} (hs : '/' ∉ s)
    (hne : separators c = [] ∨ entriesOf c s.length s ≠ []) : Cost c (parseUnsorted env s) fun n _ => 1 ≤ n := by
  intro p hp
  rw [parseUnsorted, PM.config_bind, hp]
  by_cases h0 : separators c = []
  · rw [if_pos h0, parseSingle, PM.config_bind]
    dsimp only
    split
    · refine cost_bind (R := fun n e => n = 0 ∧ '/' ∉ e) (cost_lift fun e he => ⟨rfl, fun h => hs ((substr_infix he).subset h)⟩)
        (fun n e hn => ?_) p hp
      exact cost_mono (cost_parseCidr_refused henv hm hmask hsort hd hn.2) fun k _ hk => by omega
    · exact cost_parseCidr_refused henv hm hmask hsort hd hs p hp
  · rw [if_neg h0, parseList_eq, hp]
    have hlen : 1 ≤ (entriesOf c s.length s).length :=
      List.length_pos_iff.2 (hne.resolve_left h0)
    refine cost_bind (cost_seqEntries_refused henv hm hmask hsort hd _ fun e he h =>
      hs ((entriesOf_mem c _ s e he).2.2.2.subset h)) (fun n l hn => cost_pure ?_) p hp
    omega

end

end Parser

/-! ## C74 -/

/-- C74: the option `--mask` allows masks; what is accepted without it is still accepted. -/
def C74_claim : Prop :=
  ∀ (env : ParseEnv) (db : NetDb) (o : ValidateOptions), SafeAnswers env → GoodAnswers env → DottedIsNoNumber env →
    (validateMain env db { o with mask := false }).2 = .ok 0 → (validateMain env db { o with mask := true }).2 = .ok 0

/-- There is something in the argument: always without `--list`, otherwise a character which does not separate addresses. -/
def HasEntry (o : ValidateOptions) (a : Str) : Prop := o.list = false ∨ ∃ x ∈ a, x ≠ ',' ∧ x ≠ ' '

/-- C74: with `--mask`, no argument without a mask is accepted. -/
theorem C74_mask_required (env : ParseEnv) (db : NetDb) (o : ValidateOptions) (hs : SafeAnswers env) (hg : GoodAnswers env)
    (hd : DottedIsNoNumber env) (hm : o.mask = true) (a : Str) (ha : a ∈ o.addresses) (hslash : '/' ∉ a) (hne : HasEntry o a) :
    (validateMain env db o).2 = .ok 1 := by
  obtain ⟨n, h1, h2, h3⟩ := C72_exit_status_partial env db o hs hd
  rcases h2 with h2 | h2
  swap
  · rw [h1, h2]
  exfalso
  rcases h3.1 h2 with h3 | ⟨hu, h3⟩
  · rw [h3] at ha; cases ha
  rcases configure_run env hd o with ⟨_, p, hc, hp⟩ | ⟨hx, _⟩
  swap
  · exact hx hu
  have hacc := (h3 p hp a ha).1
  obtain ⟨q, l, e1, _, _, _⟩ := tool_parse hp hs a
  have hdef : Parser.UnusableDefaults p.config := by
    intro v4
    rw [Parser.chooseMask, if_neg (fun h => h rfl), hp.mask4, hp.mask6]
    cases v4 <;> decide +kernel
  have hsep : Parser.separators p.config = [] ∨ Parser.entriesOf p.config a.length a ≠ [] := by
    rcases hne with h | ⟨x, hx, hx1, hx2⟩
    · exact .inl (by rw [Parser.separators, hp.flags, hp.flags, hp.flags]; simp [toolAllows, h])
    · refine .inr fun h => ?_
      have hcm : Parser.commentChars p.config = [] := by
        rw [Parser.commentChars, hp.flags, hp.flags]; rfl
      rw [Parser.entriesOf_eq _ (.inl hcm) _ _ (Nat.le_refl _)] at h
      have hx3 : Parser.isSep p.config x = false := by
        rw [isSep_eq, separates, hp.flags, hp.flags, hp.flags]
        simp [toolAllows, hx1, hx2]
      have : ∀ (s : Str), x ∈ s → ∃ e ∈ fields (Parser.isSep p.config) s, x ∈ e := by
        intro s
        induction s with
        | nil => exact fun h => nomatch h
        | cons y s ih =>
          intro hxs
          rw [fields]
          rcases List.mem_cons.1 hxs with rfl | hxs
          · rw [hx3, if_neg Bool.false_ne_true]
            exact ⟨_, List.mem_cons_self, List.mem_cons_self⟩
          · obtain ⟨e, he, hxe⟩ := ih hxs
            split
            · exact ⟨e, List.mem_cons_of_mem _ he, hxe⟩
            · cases hf : fields (Parser.isSep p.config) s with
              | nil => rw [hf] at he; cases he
              | cons f fs =>
                rw [hf] at he
                rcases List.mem_cons.1 he with rfl | he
                · exact ⟨_, List.mem_cons_self, List.mem_cons_of_mem _ hxe⟩
                · exact ⟨e, List.mem_cons_of_mem _ he, hxe⟩
      obtain ⟨e, he, hxe⟩ := this a hx
      have hmem : e ∈ ((fields (Parser.isSep p.config) a).map (Parser.entryText p.config)).filter (· ≠ []) := by
        refine List.mem_filter.2 ⟨List.mem_map.2 ⟨e, he, by rw [Parser.entryText, if_neg (fun h => h hcm)]⟩, ?_⟩
        rw [decide_eq_true_eq]
        intro h
        rw [h] at hxe
        cases hxe
      rw [h] at hmem
      cases hmem
  obtain ⟨k, l0, e2, e3, _⟩ := parse_entry (Q := fun n _ => 1 ≤ n)
    (Parser.cost_parseUnsorted_refused (env := env) (c := p.config) (fun _ => hg) (by rw [hp.flags]; exact hm) (hp.flags _)
      (by rw [hp.sort]; rfl) hdef hslash hsep p rfl).2 (l := l) (by rw [e1])
  rw [newErrors, hacc] at e2
  have : p.getErrorCount = 0 := hp.noErrors
  omega

/-- C74: a mask is a number of bits, not larger than the address. -/
theorem C74_with_mask (env : ParseEnv) (o : ValidateOptions) (p p0 : Parser) (hm : o.mask = true) (hp : IsToolParser env o p)
    (hp0 : IsToolParser env { o with mask := false } p0) (x t : Str) (hx : HasAddress x) (h1 : OneEntry p x) (ht0 : t ≠ [])
    (ht : ∀ c ∈ t, c.isDigit = true) (l : List Range) (halone : Parser.parse env x p0 = (p0, .ok l)) :
    (Parser.parse env (x ++ '/' :: t) p).1.getErrorCount = 0 ↔ ∀ r ∈ l, Nat.ofDigitChars 10 t 0 ≤ maskBits p x r := by
  have hf : forbidMask p = p0 := by
    refine toolParser_unique (env := env) (o := { o with mask := false })
      ⟨fun f => ?_, hp.sort, hp.addresses, hp.mask4, hp.mask6, hp.protocol, hp.port, hp.noError, hp.noErrors⟩ hp0
    by_cases hfm : f = .mask
    · subst hfm; rfl
    · rw [(forbidMask_agree p).2.2.2.2.1 f hfm, hp.flags]
      cases f <;> first | rfl | exact absurd rfl hfm
  rw [← hf] at halone
  obtain ⟨g1, g2⟩ := C40_decimal_mask env p x t l (by rw [hp.flags]; exact hm) hx h1 (by rw [Unsorted, hp.sort]; rfl) ht0 ht halone
  have h0 : p.getErrorCount = 0 := hp.noErrors
  constructor
  · intro he r hr
    by_cases hlt : Nat.ofDigitChars 10 t 0 ≤ maskBits p x r
    · exact hlt
    · have := (g1 ⟨r, hr, by omega⟩).2
      omega
  · intro hall
    obtain ⟨l', h, _⟩ := g2 hall
    rw [h]
    exact h0

theorem serviceEnv_good : GoodAnswers serviceEnv := by
  intro node service numeric hint l h
  have e : serviceEnv.getaddrinfo node service numeric hint
      = (if service.all Char.isDigit then
          match numericFound node (BitVec.ofNat 16 (Nat.ofDigitChars 10 service 0)) with
          | some x => .list (spread hint [x])
          | none => .error (-2) 0
        else .error (-8) 0) := rfl
  rw [e] at h
  split at h
  swap
  · cases h
  split at h
  · rename_i x hx
    cases h
    have hc := numericFound_complete hx
    have hr : ∀ k, GoodAnswer (retag k x) := fun k => by
      cases x with
      | inet len pr sa => exact hc.1
      | inet6 len pr sa => exact hc.1
      | other f => exact hc
    refine ⟨?_, fun y hy => ?_⟩
    · rw [spread]
      split <;> exact fun h => nomatch h
    · rw [spread] at hy
      split at hy
      · simp only [List.flatMap_cons, List.flatMap_nil, List.append_nil, List.mem_cons, List.not_mem_nil, or_false] at hy
        rcases hy with rfl | rfl | rfl <;> exact hr _
      · simp only [List.map_cons, List.map_nil, List.mem_singleton] at hy
        rw [hy]
        exact hr _
  · cases h

theorem C74_claim_fails : ¬ C74_claim := by
  intro h
  have h1 : (validateMain serviceEnv sampleDb { maskOptions false ["10.0.0.1".toList] with mask := false }).2 = .ok 0 := by decide +kernel
  have h2 : (validateMain serviceEnv sampleDb { maskOptions false ["10.0.0.1".toList] with mask := true }).2 = .ok 1 := by decide +kernel
  have h := h serviceEnv sampleDb _ (glibc_safe serviceEnv_glibc) serviceEnv_good serviceEnv_dotted h1
  rw [h2] at h
  cases h

/-- The hypotheses of C74_mask_required, for an address and a port. -/
example : HasEntry (maskOptions false ["[::1]:80".toList]) "[::1]:80".toList ∧ '/' ∉ "[::1]:80".toList
    ∧ (validateMain serviceEnv sampleDb (maskOptions false ["[::1]:80".toList])).2 = .ok 1 := by
  refine ⟨.inl rfl, by decide, ?_⟩
  exact C74_mask_required serviceEnv sampleDb _ (glibc_safe serviceEnv_glibc) serviceEnv_good serviceEnv_dotted rfl _
    List.mem_cons_self (by decide) (.inl rfl)

end Verif
