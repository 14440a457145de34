import Verif.SpecBounds
import Verif.Lemmas.ParserSays

/-!
# Property C129: ranges whose bounds are names
-/

namespace Verif

open Spec

/-- A parser which reads one entry with lookups (its default) and ranges, without masks. -/
structure LooksUpRange (p : Parser) (inp : Str) : Prop where
  lookup : p.config.flags .addressLookup = true
  mask : p.config.flags .mask = false
  range : p.config.flags .addressRange = true
  one : OneEntry p inp
  sort : Unsorted p

/-- The call of `parse()` returns these ranges and adds `n` errors. -/
def Reads (env : ParseEnv) (p : Parser) (inp : Str) (rs : List Range) (n : Nat) : Prop :=
  ∃ p', Parser.parse env inp p = (p', .ok rs) ∧ p'.config = p.config ∧ p'.getErrorCount = p.getErrorCount + n
    ∧ p.errorMessages <+: p'.errorMessages

/-! ### Lemmas -/

namespace Parser

section
variable {env : ParseEnv} {p : Parser}

theorem number_of_holds {x : AddrInfo} {s : SockaddrIn6} (h : Spec.Holds x s) : ip s.addr = answerNumber x := by
  cases x with
  | inet len pr sa =>
    cases h
    exact ip_mapped _
  | inet6 len pr sa => cases h; rfl
  | other f => cases h

theorem dropDuplicates_exact {a : Addr} (ha : a.protocol = 0 ∨ a.protocol = 6 ∨ a.protocol = 17) (l : List Range) :
    ∃ l', dropDuplicates a l = .ok l' ∧ (l' = [] ↔ ∀ r ∈ l, ip r.lo.getIpv6.addr = ip a.getIpv6.addr) := by
  induction l with
  | nil => exact ⟨[], rfl, by simp⟩
  | cons r l ih =>
    have hs : ∃ b, onLocal (Addr.setProtocol a.protocol) r.lo = .ok b := by
      rw [onLocal, Addr.setProtocol, if_pos (show a.protocol = IPPROTO_IP ∨ a.protocol = IPPROTO_TCP ∨ a.protocol = IPPROTO_UDP from ha)]
      by_cases h : a.protocol ≠ r.lo.protocol
      · rw [if_pos h]
        exact ⟨_, rfl⟩
      · rw [if_neg h]
        exact ⟨_, rfl⟩
    obtain ⟨b, hb⟩ := hs
    have hadd := setProtocol_address hb
    rw [dropDuplicates, hb]
    show ∃ l', (if Addr.ne a b then Res.ok (r :: l) else dropDuplicates a l) = .ok l' ∧ _
    have hne : Addr.ne a b = true ↔ ip r.lo.getIpv6.addr ≠ ip a.getIpv6.addr := by
      rw [Addr.ne, Addr.cmp, memcmp_eq (by simp), Addr.getIpv6, Addr.getIpv6, ← hadd, bne_iff_ne]
      show (if ip a.address.addr < ip b.address.addr then (-1 : Int) else if ip a.address.addr = ip b.address.addr then 0 else 1) ≠ 0 ↔ _
      by_cases h1 : ip a.address.addr < ip b.address.addr
      · rw [if_pos h1]
        exact ⟨fun _ => by omega, fun _ => by decide⟩
      · rw [if_neg h1]
        by_cases h2 : ip a.address.addr = ip b.address.addr
        · rw [if_pos h2]
          exact ⟨fun h => absurd rfl h, fun h => absurd h2.symm h⟩
        · rw [if_neg h2]
          exact ⟨fun _ h => h2 h.symm, fun _ => by decide⟩
    by_cases h : Addr.ne a b = true
    · rw [if_pos h]
      refine ⟨_, rfl, ?_⟩
      simp [hne.1 h]
    · rw [if_neg h]
      obtain ⟨l', h1, h2⟩ := ih
      refine ⟨l', h1, ?_⟩
      rw [h2]
      have := Classical.not_not.1 (fun h' => h (hne.2 h'))
      simp [this]

theorem usable_protocol {x : AddrInfo} (hs : SafeAnswer x) (hu : usable x = true) :
    answerProtocol x = 0 ∨ answerProtocol x = 6 ∨ answerProtocol x = 17 := by
  have key : ∀ n : Int, KnownProtocol n → (if n = -1 then 6 else n) = (0 : Int) ∨ (if n = -1 then 6 else n) = (6 : Int)
      ∨ (if n = -1 then 6 else n) = (17 : Int) := by
    intro n hn
    unfold KnownProtocol at hn
    split <;> omega
  cases x with
  | inet len pr sa => exact key pr (hs (beq_iff_eq.1 hu)).2
  | inet6 len pr sa => exact key pr (hs (beq_iff_eq.1 hu)).2
  | other f => cases hu

theorem each_left {α β : Type} {R : α → β → Prop} {l : List α} {l' : List β} (h : Each R l l') {a : α} (ha : a ∈ l) : ∃ b ∈ l', R a b := by
  induction h with
  | nil => cases ha
  | cons h1 _ ih =>
    rcases List.mem_cons.1 ha with rfl | ha
    · exact ⟨_, List.mem_cons_self, h1⟩
    · obtain ⟨b, hb, hr⟩ := ih ha
      exact ⟨b, List.mem_cons_of_mem _ hb, hr⟩

theorem each_right {α β : Type} {R : α → β → Prop} {l : List α} {l' : List β} (h : Each R l l') {b : β} (hb : b ∈ l') : ∃ a ∈ l, R a b := by
  induction h with
  | nil => cases hb
  | cons h1 _ ih =>
    rcases List.mem_cons.1 hb with rfl | hb
    · exact ⟨_, List.mem_cons_self, h1⟩
    · obtain ⟨a, ha, hr⟩ := ih hb
      exact ⟨a, List.mem_cons_of_mem _ ha, hr⟩

/-- The ranges found for a bound. -/
theorem bound_list (hl : p.config.flags .addressLookup = true) {u q : Str} (hu : u ≠ [])
    (hr : p.config.flags .requiredPort = false ∨ q ≠ []) (v6 : Bool) {l : List AddrInfo} (ha : answerTo env p u q = .list l)
    (hs : ∀ x ∈ l, SafeAnswer x) :
    ∃ errs rs, parseAddressPort env u q [] v6 p = (emitAll errs p, .ok rs) ∧ errs.length = badAnswers l
      ∧ Each (fun x r => r.hasFrom = true ∧ r.hasTo = false ∧ AddressOfAnswer u q x r.lo) (l.filter usable) rs := by
  obtain ⟨q', h1, h2⟩ := parseAddressPort_lookup (env := env) hl hu hr v6
  obtain ⟨errs, rs, g1, g2, g3⟩ := loop_exact u (decide (q ≠ [])) l hs true [] p
  refine ⟨errs, rs, ?_, by rw [g2, badAnswers, Bool.true_and], each_mono (fun x r hr => ⟨hr.1.hasFrom, hr.1.hasTo, hr.1.holds, hr.1.protocol,
    hr.1.hostname, by rw [Addr.getMask, hr.2.1]; decide, by rw [hr.2.2, decide_eq_true_eq]⟩) g3⟩
  rw [h1, lookupAddress, PM.config_bind, h2, show env.getaddrinfo (cstr u) (serviceAsked p q) false (hintProtocol p.config.protocol) = .list l from ha]
  exact g1

theorem bound_found (hl : p.config.flags .addressLookup = true) {u q : Str} (hu : u ≠ []) (which : Str) (v6 : Bool) {x : AddrInfo} {n : Nat}
    (h : OneHost env p u q x n) :
    ∃ errs r, parseBound env which u q v6 p = (emitAll errs p, .ok (some r)) ∧ errs.length = n ∧ r.hasFrom = true ∧ r.hasTo = false
      ∧ AddressOfAnswer u q x r.lo := by
  obtain ⟨hr, l, rest, h1, h2, h3, h4, h5⟩ := h
  obtain ⟨errs, rs, g1, g2, g3⟩ := bound_list hl hu hr v6 h1 h2
  rw [h3] at g3
  cases g3 with
  | @cons _ r _ rs hx g3 =>
    have hux : x ∈ l.filter usable := h3 ▸ List.mem_cons_self
    have hp : r.lo.protocol = 0 ∨ r.lo.protocol = 6 ∨ r.lo.protocol = 17 := by
      rw [hx.2.2.protocol]
      exact usable_protocol (h2 x (List.mem_filter.1 hux).1) (List.mem_filter.1 hux).2
    obtain ⟨l', d1, d2⟩ := dropDuplicates_exact hp rs
    have hl' : l' = [] := d2.2 fun s hs => by
      obtain ⟨y, hy, hys⟩ := each_right g3 hs
      rw [number_of_holds hys.2.2.holds, number_of_holds hx.2.2.holds, h4 y hy]
    subst hl'
    refine ⟨errs, r, ?_, by rw [g2, h5], hx⟩
    rw [parseBound, PM.bind_def, ignoreDuplicates, PM.bind_def, g1]
    dsimp only
    rw [d1, PM.lift_ok_bind]
    rfl

theorem bound_not_found (hl : p.config.flags .addressLookup = true) {u q : Str} (hu : u ≠ []) (which : Str) (v6 : Bool) {n : Nat}
    (h : NotOneHost env p u q n) :
    ∃ errs, parseBound env which u q v6 p = (emitAll errs p, .ok none) ∧ errs.length = n := by
  have none_of : ∀ {msg : Str}, parseAddressPort env u q [] v6 p = (emitAll [msg] p, .ok []) → n = 1 →
      ∃ errs, parseBound env which u q v6 p = (emitAll errs p, .ok none) ∧ errs.length = n := by
    intro msg h1 h2
    refine ⟨[msg], ?_, h2.symm⟩
    rw [parseBound, PM.bind_def, ignoreDuplicates, PM.bind_def, h1]
    rfl
  rcases h with ⟨hr, rfl, hn⟩ | ⟨hr, ⟨r, e, he, hn⟩ | ⟨l, h1, h2, h3⟩⟩
  · obtain ⟨msg, h1⟩ := parseAddressPort_required (env := env) hr u v6
    exact none_of h1 hn
  · obtain ⟨q', g1, g2⟩ := parseAddressPort_lookup (env := env) hl hu hr v6
    have : Refuses (parseAddressPort env u q [] v6) p := by
      unfold Refuses
      rw [g1, lookupAddress, PM.config_bind, g2, show env.getaddrinfo (cstr u) (serviceAsked p q) false (hintProtocol p.config.protocol) = .error r e from he]
      exact refuses_error _ p
    obtain ⟨msg, h1⟩ := this
    exact none_of h1 hn
  · obtain ⟨errs, rs, g1, g2, g3⟩ := bound_list hl hu hr v6 h1 h2
    rcases h3 with ⟨h3, h4⟩ | ⟨⟨x, hx, y, hy, hxy⟩, h4⟩
    · rw [h3] at g3
      cases g3
      refine ⟨errs, ?_, by rw [g2, h4]⟩
      rw [parseBound, PM.bind_def, ignoreDuplicates, PM.bind_def, g1]
      rfl
    · generalize hk : l.filter usable = k at hx hy g3
      cases g3 with
      | nil => cases hx
      | @cons z r k rs hz g3 =>
        have huz : z ∈ l.filter usable := hk ▸ List.mem_cons_self
        have hp : r.lo.protocol = 0 ∨ r.lo.protocol = 6 ∨ r.lo.protocol = 17 := by
          rw [hz.2.2.protocol]
          exact usable_protocol (h2 z (List.mem_filter.1 huz).1) (List.mem_filter.1 huz).2
        obtain ⟨l', d1, d2⟩ := dropDuplicates_exact hp rs
        have hl' : l' ≠ [] := by
          intro hl'
          have hall : ∀ w ∈ z :: k, answerNumber w = answerNumber z := by
            intro w hw
            rcases List.mem_cons.1 hw with rfl | hw
            · rfl
            · obtain ⟨s, hs, hws⟩ := each_left g3 hw
              rw [← number_of_holds hws.2.2.holds, ← number_of_holds hz.2.2.holds]
              exact d2.1 hl' s hs
          exact hxy ((hall x hx).trans (hall y hy).symm)
        refine ⟨errs ++ ["The \"".toList ++ which ++ "\" of an address range must be exactly one address.".toList], ?_, ?_⟩
        · rw [parseBound, PM.bind_def, ignoreDuplicates, PM.bind_def, g1]
          dsimp only
          rw [d1, PM.lift_ok_bind]
          cases l' with
          | nil => exact absurd rfl hl'
          | cons s l' =>
            show (emitError _ >>= fun _ => (Pure.pure none : PM (Option Range))) (emitAll errs p) = _
            rw [PM.bind_def, emitError_apply, emitAll_append]
            rfl
        · rw [List.length_append, g2, h4]
          rfl

/-- The entry is read as the addresses which are written in it. -/
theorem written_reads {t s q : Str} (h : Written p t s q) :
    ∃ v4 v6, parseAddress env t [] [] p
      = (parseAddressRangePort env s q [] v6 >>= fun l => (Pure.pure (v4, l) : PM (Bool × List Range))) p := by
  have key : ∀ {m : PM (List Range)} {u : Str} (v4 v6 : Bool),
      parseAddress env t [] [] p = (m >>= fun l => (Pure.pure (v4, l) : PM (Bool × List Range))) p →
      m p = parseAddressRangePort env u q [] v6 p →
      ∃ v4 v6, parseAddress env t [] [] p
        = (parseAddressRangePort env u q [] v6 >>= fun l => (Pure.pure (v4, l) : PM (Bool × List Range))) p := by
    intro m u v4 v6 h1 h2
    refine ⟨v4, v6, ?_⟩
    rw [h1, PM.bind_def, PM.bind_def, h2]
  obtain ⟨v4, h1, _, h3⟩ := parseAddress_dispatch env p t
  cases h with
  | plain hne h hb =>
    cases v4 with
    | true =>
      rw [if_pos rfl] at h3
      refine key true false h3 ?_
      rw [parseAddress4, PM.config_bind, splitFirst_none.2 h]
    | false =>
      rw [if_neg Bool.false_ne_true] at h3
      refine key false true h3 ?_
      rw [parseAddress6, PM.config_bind, if_neg hb, if_neg (by rw [List.count_eq_zero.2 h]; decide)]
  | port hne h hb hq hp =>
    have hk : (s ++ ':' :: q).count ':' = 1 := by
      rw [List.count_append, List.count_cons_self, List.count_eq_zero.2 h, List.count_eq_zero.2 hq]
    have hhd : (s ++ ':' :: q).head? = s.head? := head_append hne _
    have h4 := parseAddress_eq env (s ++ ':' :: q) [] [] p ⟨by simp, .inr (by
      rw [hhd]
      exact fun h' => h (List.mem_of_head? h'))⟩
    cases hv : asIpv4 p.config (s ++ ':' :: q) with
    | true =>
      rw [hv, if_pos rfl] at h4
      refine key true false h4 ?_
      have hports : Ports p.config := by
        refine Classical.byContradiction fun hn => ?_
        have hp := hp.resolve_left hn
        rw [asIpv4, if_neg (by omega)] at hv
        by_cases h5 : (s ++ ':' :: q).head? = some '[' ∨ ']' ∈ s ++ ':' :: q
        · rw [if_pos h5] at hv
          cases hv
        · rw [if_neg h5, if_pos (ports_not.2 hn), splitFirst_append h] at hv
          have hv := of_decide_eq_true hv
          rcases hp with hp | hp | hp
          · exact hp hv
          · exact h5 (.inr (List.mem_append_left _ hp))
          · exact h5 (.inr (List.mem_append_right _ (List.mem_cons_of_mem _ hp)))
      rw [parseAddress4, PM.config_bind, splitFirst_append h]
      dsimp only
      rw [if_pos (ports_or.2 hports)]
    | false =>
      rw [hv, if_neg Bool.false_ne_true] at h4
      refine key false true h4 ?_
      rw [parseAddress6, PM.config_bind, if_neg (by rw [hhd]; exact hb), if_pos hk, splitFirst_append h]
  | six h hb =>
    cases v4 with
    | true => exact absurd (h1 rfl).1 (by omega)
    | false =>
      rw [if_neg Bool.false_ne_true] at h3
      refine key false true h3 ?_
      rw [parseAddress6, PM.config_bind, if_neg hb, if_neg (by omega)]
  | bracket h =>
    cases v4 with
    | true => exact absurd rfl (h1 rfl).2
    | false =>
      rw [if_neg Bool.false_ne_true] at h3
      refine key false true h3 ?_
      rw [parseAddress6, PM.config_bind, if_pos (show ('[' :: s ++ [']']).head? = some '[' from rfl)]
      have e : splitFirst ']' (('[' :: s ++ [']']).drop 1) = some (s, []) := splitFirst_append h
      rw [e]
  | bracketPort h hp =>
    cases v4 with
    | true => exact absurd rfl (h1 rfl).2
    | false =>
      rw [if_neg Bool.false_ne_true] at h3
      refine key false true h3 ?_
      rw [parseAddress6, PM.config_bind, if_pos (show ('[' :: s ++ ']' :: ':' :: q).head? = some '[' from rfl)]
      have e : splitFirst ']' (('[' :: s ++ ']' :: ':' :: q).drop 1) = some (s, ':' :: q) := splitFirst_append h
      rw [e]
      have hf : ¬ (!p.config.flags .port && !p.config.flags .requiredPort) = true := fun h => ports_not.1 h hp
      have e2 : ∀ x y z : PM (List Range), (if ':' ≠ ':' then x else
          if (!p.config.flags .port && !p.config.flags .requiredPort) = true then y else z) = z := fun x y z => by
        rw [if_neg (not_not_intro rfl), if_neg hf]
      exact (congrArg (fun m : PM (List Range) => m p = parseAddressRangePort env s q [] true p) (e2 _ _ _)).mpr rfl

theorem range_from (hr : p.config.flags .addressRange = true) {u q : Str} (hu : u ≠ []) (hm : '-' ∉ u) (v6 : Bool) :
    parseAddressRangePort env (u ++ ['-']) q [] v6 p = (parseBound env "from".toList u q v6 >>= fun
      | none => (Pure.pure [] : PM (List Range))
      | some r => Pure.pure [r]) p := by
  rw [parseAddressRangePort, PM.config_bind, hr, if_pos rfl, splitFirst_append hm]
  cases u with
  | nil => exact absurd rfl hu
  | cons c u => rfl

theorem range_to (hr : p.config.flags .addressRange = true) {w q : Str} (hw : w ≠ []) (v6 : Bool) :
    parseAddressRangePort env ('-' :: w) q [] v6 p = (parseBound env "to".toList w q v6 >>= fun
      | none => (Pure.pure [] : PM (List Range))
      | some r => Pure.pure [r.swapFromTo]) p := by
  rw [parseAddressRangePort, PM.config_bind, hr, if_pos rfl, show splitFirst '-' ('-' :: w) = some ([], w) from splitFirst_append (a := []) (by simp)]
  cases w with
  | nil => exact absurd rfl hw
  | cons c u => rfl

theorem range_both (hr : p.config.flags .addressRange = true) {u w q : Str} (hu : u ≠ []) (hm : '-' ∉ u) (hw : w ≠ []) (v6 : Bool) :
    parseAddressRangePort env (u ++ '-' :: w) q [] v6 p = (parseBound env "from".toList u q v6 >>= fun
      | none => (Pure.pure [] : PM (List Range))
      | some r => parseBound env "to".toList w q v6 >>= fun
        | none => (Pure.pure [] : PM (List Range))
        | some t => if (p.config.sort &&& SORT_NO_EMPTY = 0 || !(r.setTo t.lo).isEmpty) = true then Pure.pure [r.setTo t.lo] else Pure.pure []) p := by
  rw [parseAddressRangePort, PM.config_bind, hr, if_pos rfl, splitFirst_append hm]
  cases u with
  | nil => exact absurd rfl hu
  | cons c u =>
    cases w with
    | nil => exact absurd rfl hw
    | cons c w => rfl

end

end Parser

theorem written_range {env : ParseEnv} {p : Parser} {inp t s q : Str} (h : LooksUpRange p inp) (ht : Trims inp t) (hw : Written p t s q) :
    ∃ v6, ∀ errs rs, Parser.parseAddressRangePort env s q [] v6 p = (Parser.emitAll errs p, .ok rs) → Reads env p inp rs errs.length := by
  obtain ⟨v4, v6, h1⟩ := Parser.written_reads (env := env) hw
  refine ⟨v6, fun errs rs hr => ⟨Parser.emitAll errs p, ?_, emitted⟩⟩
  rw [parse_one_unsorted env inp p h.one h.sort, Parser.parseCidr, PM.config_bind, trims_eq ht]
  dsimp only
  rw [if_neg (by rw [h.mask]; exact Bool.false_ne_true), PM.bind_of_ok (h1.trans (by rw [PM.bind_of_ok hr]; rfl))]
  rfl

/-! ### C129 -/

/-- C129: a bound is one address or is not, when the system answers with well-formed addresses. -/
theorem C129_decided (env : ParseEnv) (p : Parser) (u q : Str) (h : SafeAnswers env) :
    (∃ x n, OneHost env p u q x n) ∨ ∃ n, NotOneHost env p u q n := by
  by_cases hr : p.config.flags .requiredPort = false ∨ q ≠ []
  · cases ha : answerTo env p u q with
    | error r e => exact .inr ⟨1, .inr ⟨hr, .inl ⟨r, e, ha, rfl⟩⟩⟩
    | list l =>
      have hs : ∀ x ∈ l, SafeAnswer x := h _ _ _ l (by
        by_cases hp : p.config.protocol = IPPROTO_TCP ∨ p.config.protocol = IPPROTO_UDP
        · rw [if_pos hp]
          exact .inr hp
        · rw [if_neg hp]
          exact .inl rfl) ha
      cases hk : l.filter usable with
      | nil => exact .inr ⟨_, .inr ⟨hr, .inr ⟨l, ha, hs, .inl ⟨hk, rfl⟩⟩⟩⟩
      | cons x rest =>
        by_cases hall : ∀ y ∈ rest, answerNumber y = answerNumber x
        · exact .inl ⟨x, _, hr, l, rest, ha, hs, hk, hall, rfl⟩
        · obtain ⟨y, hy⟩ := Classical.not_forall.1 hall
          have hy' := Classical.not_imp.1 hy
          exact .inr ⟨_, .inr ⟨hr, .inr ⟨l, ha, hs, .inr ⟨⟨y, hk ▸ List.mem_cons_of_mem _ hy'.1, x, hk ▸ List.mem_cons_self, hy'.2⟩, rfl⟩⟩⟩⟩
  · refine .inr ⟨1, .inl ⟨?_, Classical.byContradiction fun h => hr (.inr h), rfl⟩⟩
    cases hp : p.config.flags .requiredPort with
    | true => rfl
    | false => exact absurd (.inl hp) hr

/-- C129: a host found with the one address `x` is one address, although the C library gives it once for each protocol when none is
asked for, and no error is made. -/
theorem C129_spread (env : ParseEnv) (p : Parser) (u q : Str) (x : AddrInfo) (hr : p.config.flags .requiredPort = false ∨ q ≠ [])
    (hx : CompleteAnswer x) (ha : answerTo env p u q
      = .list (spread (if p.config.protocol = IPPROTO_TCP ∨ p.config.protocol = IPPROTO_UDP then p.config.protocol else 0) [x])) :
    ∃ y, OneHost env p u q y 0 ∧ answerNumber y = answerNumber x := by
  have hnum : ∀ k, answerNumber (retag k x) = answerNumber x := by cases x <;> exact fun k => rfl
  have huse : ∀ k, usable (retag k x) = true := by
    intro k
    cases x with
    | inet len pr sa => exact beq_iff_eq.2 hx.1
    | inet6 len pr sa => exact beq_iff_eq.2 hx.1
    | other f => cases hx
  have hsafe : ∀ k, KnownProtocol k → SafeAnswer (retag k x) := by
    intro k hk
    cases x with
    | inet len pr sa => exact fun _ => ⟨hx.2, hk⟩
    | inet6 len pr sa => exact fun _ => ⟨hx.2, hk⟩
    | other f => cases hx
  have hgood : ∀ k, wrongSize (retag k x) = false ∧ noAddressFamily (retag k x) = false := by
    intro k
    cases x with
    | inet len pr sa => exact ⟨bne_eq_false_iff_eq.2 hx.1, rfl⟩
    | inet6 len pr sa => exact ⟨bne_eq_false_iff_eq.2 hx.1, rfl⟩
    | other f => cases hx
  by_cases hp : p.config.protocol = IPPROTO_TCP ∨ p.config.protocol = IPPROTO_UDP
  · rw [if_pos hp] at ha
    have hne : p.config.protocol ≠ 0 := by rcases hp with hp | hp <;> rw [hp] <;> decide
    rw [spread, if_neg hne] at ha
    refine ⟨retag p.config.protocol x, ⟨hr, _, [], ha, ?_, ?_, ?_, ?_⟩, hnum _⟩
    · intro y hy
      rw [List.map_cons, List.map_nil, List.mem_singleton] at hy
      rw [hy]
      exact hsafe _ (by unfold KnownProtocol; rcases hp with hp | hp <;> rw [hp] <;> decide)
    · simp [huse]
    · intro y hy
      cases hy
    · simp [badAnswers, hgood]
  · rw [if_neg hp, spread, if_pos rfl] at ha
    refine ⟨retag 6 x, ⟨hr, _, [retag 17 x, retag 0 x], ha, ?_, ?_, ?_, ?_⟩, hnum _⟩
    · intro y hy
      rcases (by simpa using hy : y = _ ∨ y = _ ∨ y = _) with rfl | rfl | rfl <;> exact hsafe _ (by unfold KnownProtocol; decide)
    · simp [huse]
    · intro y hy
      rcases (by simpa using hy : y = _ ∨ y = _) with rfl | rfl <;> rw [hnum, hnum]
    · simp [badAnswers, hgood]

/-- C129: a numeric bound is the address it writes. -/
theorem C129_numeric (env : ParseEnv) (p : Parser) (u q : Str) (n k : Nat) (henv : NumericService env)
    (hr : p.config.flags .requiredPort = false ∨ q ≠ []) (hu : AddressOf u n) (hk : k ≤ 65535) (hs : serviceAsked p q = dec k) :
    ∃ x, OneHost env p u q x 0 ∧ answerNumber x = n := by
  obtain ⟨b, hb, hread⟩ := Parser.address_readable hu
  rcases hread.writes with ⟨b4, h4, rfl⟩ | ⟨h4, h6⟩
  · obtain ⟨y, h1, h2⟩ := C129_spread env p u q
      (.inet sizeofIn 0 { family := AF_INET, port := swap16 (BitVec.ofNat 16 k), addr := b4, zero := Vector.replicate 8 0 }) hr ⟨rfl, rfl⟩
      (by rw [answerTo, hs]; exact (henv _ k _ hk).1 b4 h4)
    exact ⟨y, h1, h2.trans ((Parser.ip_mapped b4).symm.trans hb)⟩
  · obtain ⟨y, h1, h2⟩ := C129_spread env p u q
      (.inet6 sizeofIn6 0 { family := AF_INET6, port := swap16 (BitVec.ofNat 16 k), flowinfo := 0, scope := 0, addr := b }) hr ⟨rfl, rfl⟩
      (by rw [answerTo, hs]; exact (henv _ k _ hk).2 b h4 h6)
    exact ⟨y, h1, h2.trans hb⟩

/-- C129: the entry `u-` is the range which starts at the address of `u`, if that is one address; otherwise there is no range. -/
theorem C129_from (env : ParseEnv) (p : Parser) (inp t u q : Str) (h : LooksUpRange p inp) (ht : Trims inp t)
    (hw : Written p t (u ++ ['-']) q) (hu : u ≠ []) (hm : '-' ∉ u) :
    (∀ x n, OneHost env p u q x n → ∃ r, Reads env p inp [r] n ∧ r.hasFrom = true ∧ r.hasTo = false ∧ AddressOfAnswer u q x r.lo)
      ∧ ∀ n, NotOneHost env p u q n → Reads env p inp [] n := by
  obtain ⟨v6, h1⟩ := written_range (env := env) h ht hw
  constructor
  · intro x n hx
    obtain ⟨errs, r, g1, g2, g3, g4, g5⟩ := Parser.bound_found h.lookup hu "from".toList v6 hx
    refine ⟨r, g2 ▸ h1 errs [r] ?_, g3, g4, g5⟩
    rw [Parser.range_from h.range hu hm, PM.bind_of_ok g1]
    rfl
  · intro n hx
    obtain ⟨errs, g1, g2⟩ := Parser.bound_not_found h.lookup hu "from".toList v6 hx
    refine g2 ▸ h1 errs [] ?_
    rw [Parser.range_from h.range hu hm, PM.bind_of_ok g1]
    rfl

/-- C129: the entry `-w` is the range which ends at the address of `w`, if that is one address; otherwise there is no range. -/
theorem C129_to (env : ParseEnv) (p : Parser) (inp t w q : Str) (h : LooksUpRange p inp) (ht : Trims inp t)
    (hw : Written p t ('-' :: w) q) (hne : w ≠ []) :
    (∀ x n, OneHost env p w q x n → ∃ r, Reads env p inp [r] n ∧ r.hasFrom = false ∧ r.hasTo = true ∧ AddressOfAnswer w q x r.hi)
      ∧ ∀ n, NotOneHost env p w q n → Reads env p inp [] n := by
  obtain ⟨v6, h1⟩ := written_range (env := env) h ht hw
  constructor
  · intro x n hx
    obtain ⟨errs, r, g1, g2, g3, g4, g5⟩ := Parser.bound_found h.lookup hne "to".toList v6 hx
    refine ⟨r.swapFromTo, g2 ▸ h1 errs [r.swapFromTo] ?_, g4, g3, g5⟩
    rw [Parser.range_to h.range hne, PM.bind_of_ok g1]
    rfl
  · intro n hx
    obtain ⟨errs, g1, g2⟩ := Parser.bound_not_found h.lookup hne "to".toList v6 hx
    refine g2 ▸ h1 errs [] ?_
    rw [Parser.range_to h.range hne, PM.bind_of_ok g1]
    rfl

/-- C129: the entry `u-w` is the range between the two addresses, if each is one address, unless it is empty and empty ranges are
dropped; the second bound is only asked for when the first one is there. -/
theorem C129_both (env : ParseEnv) (p : Parser) (inp t u w q : Str) (h : LooksUpRange p inp) (ht : Trims inp t)
    (hw : Written p t (u ++ '-' :: w) q) (hu : u ≠ []) (hm : '-' ∉ u) (hne : w ≠ []) :
    (∀ n, NotOneHost env p u q n → Reads env p inp [] n)
      ∧ (∀ x n n', OneHost env p u q x n → NotOneHost env p w q n' → Reads env p inp [] (n + n'))
      ∧ ∀ x n y n', OneHost env p u q x n → OneHost env p w q y n' →
          ((p.config.sort &&& 0x10 = 0 ∨ answerNumber x ≤ answerNumber y) → ∃ r, Reads env p inp [r] (n + n') ∧ r.hasFrom = true ∧ r.hasTo = true
              ∧ AddressOfAnswer u q x r.lo ∧ AddressOfAnswer w q y r.hi)
          ∧ (¬ (p.config.sort &&& 0x10 = 0 ∨ answerNumber x ≤ answerNumber y) → Reads env p inp [] (n + n')) := by
  obtain ⟨v6, h1⟩ := written_range (env := env) h ht hw
  refine ⟨fun n hx => ?_, fun x n n' hx hy => ?_, fun x n y n' hx hy => ?_⟩
  · obtain ⟨errs, g1, g2⟩ := Parser.bound_not_found h.lookup hu "from".toList v6 hx
    refine g2 ▸ h1 errs [] ?_
    rw [Parser.range_both h.range hu hm hne, PM.bind_of_ok g1]
    rfl
  · obtain ⟨errs, r, g1, g2, g3, g4, g5⟩ := Parser.bound_found h.lookup hu "from".toList v6 hx
    obtain ⟨errs', k1, k2⟩ := Parser.bound_not_found (p := Parser.emitAll errs p) h.lookup hne "to".toList v6 hy
    have := h1 (errs ++ errs') [] (by
      rw [Parser.range_both h.range hu hm hne, PM.bind_of_ok g1]
      dsimp only
      rw [PM.bind_of_ok k1, Parser.emitAll_append]
      rfl)
    rw [List.length_append, g2, k2] at this
    exact this
  · obtain ⟨errs, r, g1, g2, g3, g4, g5⟩ := Parser.bound_found h.lookup hu "from".toList v6 hx
    obtain ⟨errs', s, k1, k2, k3, k4, k5⟩ := Parser.bound_found (p := Parser.emitAll errs p) h.lookup hne "to".toList v6 hy
    have he : Parser.parseAddressRangePort env (u ++ '-' :: w) q [] v6 p = (Parser.emitAll (errs ++ errs') p,
        .ok (if (p.config.sort &&& SORT_NO_EMPTY = 0 || !(r.setTo s.lo).isEmpty) = true then [r.setTo s.lo] else [])) := by
      rw [Parser.range_both h.range hu hm hne, PM.bind_of_ok g1]
      dsimp only
      rw [PM.bind_of_ok k1, Parser.emitAll_append]
      dsimp only
      split <;> rfl
    have hem : (r.setTo s.lo).isEmpty = true ↔ ¬ answerNumber x ≤ answerNumber y := by
      rw [isEmpty_ip, decide_eq_true_eq, Range.isRange, Range.setTo, g3, Nat.not_le, ← Parser.number_of_holds g5.holds, ← Parser.number_of_holds k5.holds]
      exact ⟨fun h => h.2, fun h => ⟨rfl, h⟩⟩
    have hc : (p.config.sort &&& SORT_NO_EMPTY = 0 || !(r.setTo s.lo).isEmpty) = true ↔
        (p.config.sort &&& 0x10 = 0 ∨ answerNumber x ≤ answerNumber y) := by
      rw [Bool.or_eq_true, decide_eq_true_eq, Bool.not_eq_true', ← Bool.not_eq_true, hem, Classical.not_not]
      rfl
    have h1 := h1 _ _ he
    rw [List.length_append, g2, k2] at h1
    constructor
    · intro hn
      rw [if_pos (hc.2 hn)] at h1
      exact ⟨_, h1, g3, rfl, g5, k5⟩
    · intro hn
      rw [if_neg (fun h => hn (hc.1 h))] at h1
      exact h1

/-- C129: a hyphen alone is refused. -/
theorem C129_neither (env : ParseEnv) (p : Parser) (inp t q : Str) (h : LooksUpRange p inp) (ht : Trims inp t) (hw : Written p t ['-'] q) :
    Reads env p inp [] 1 := by
  obtain ⟨v6, h1⟩ := written_range (env := env) h ht hw
  refine h1 ["An address range requires at least one of the \"from\" or \"to\" addresses.".toList] [] ?_
  rw [Parser.parseAddressRangePort, PM.config_bind, h.range, if_pos rfl,
    show Parser.splitFirst '-' ['-'] = some ([], []) from Parser.splitFirst_append (a := []) (by simp)]
  show (Parser.emitError _ >>= fun _ => (Pure.pure [] : PM (List Range))) p = _
  rw [PM.bind_def, Parser.emitError_apply]
  rfl

/-! ### Examples -/

/-- A parser of ranges, otherwise as it is created. -/
def namesParser : Parser := ParserOp.runAll [(sampleEnv, .setAllow 6 true)] Parser.create

/-- A name service which knows one host with one address and one with two. -/
def boundsEnv : ParseEnv :=
  { sampleEnv with
    getaddrinfo := fun node _ _ hint =>
      if node = "gate".toList then
        .list (spread hint [.inet sizeofIn 0 { family := AF_INET, port := 0x5000, addr := #v[10, 0, 0, 1], zero := Vector.replicate 8 0 }])
      else if node = "last".toList then
        .list (spread hint [.inet sizeofIn 0 { family := AF_INET, port := 0x5000, addr := #v[10, 0, 0, 9], zero := Vector.replicate 8 0 }])
      else if node = "farm".toList then
        .list (spread hint [.inet sizeofIn 0 { family := AF_INET, port := 0x5000, addr := #v[10, 0, 0, 1], zero := Vector.replicate 8 0 },
          .inet sizeofIn 0 { family := AF_INET, port := 0x5000, addr := #v[10, 0, 0, 2], zero := Vector.replicate 8 0 }])
      else .error (-2) 0 }

theorem namesParser_looksUp (inp : Str) (h : inp ≠ []) : LooksUpRange namesParser inp where
  lookup := by decide
  mask := by decide
  range := by decide
  one := ⟨h, (fun x _ => by
    rw [separates, show namesParser.config.flags .multiAddressesCommas = false by decide,
      show namesParser.config.flags .multiAddressesSpaces = false by decide,
      show namesParser.config.flags .multiAddressesNewlines = false by decide]
    rfl), ⟨by decide, by decide⟩⟩
  sort := by unfold Unsorted; decide

theorem boundsEnv_gate (p : Parser) (q : Str) (hr : p.config.flags .requiredPort = false ∨ q ≠ []) :
    ∃ x, OneHost boundsEnv p "gate".toList q x 0 ∧ answerNumber x = 0xFFFF0A000001 := by
  obtain ⟨x, h1, h2⟩ := C129_spread boundsEnv p "gate".toList q (hr := hr)
    (x := .inet sizeofIn 0 { family := AF_INET, port := 0x5000, addr := #v[10, 0, 0, 1], zero := Vector.replicate 8 0 }) (hx := ⟨rfl, rfl⟩) (ha := rfl)
  exact ⟨x, h1, h2.trans (by decide)⟩

theorem boundsEnv_last (p : Parser) (q : Str) (hr : p.config.flags .requiredPort = false ∨ q ≠ []) :
    ∃ x, OneHost boundsEnv p "last".toList q x 0 ∧ answerNumber x = 0xFFFF0A000009 := by
  obtain ⟨x, h1, h2⟩ := C129_spread boundsEnv p "last".toList q (hr := hr)
    (x := .inet sizeofIn 0 { family := AF_INET, port := 0x5000, addr := #v[10, 0, 0, 9], zero := Vector.replicate 8 0 }) (hx := ⟨rfl, rfl⟩) (ha := rfl)
  exact ⟨x, h1, h2.trans (by decide)⟩

-- C129_both on two names, with a port.
example : ∃ r, Reads boundsEnv namesParser " gate-last:80".toList [r] 0 ∧ r.hasFrom = true ∧ r.hasTo = true
    ∧ ip r.lo.getIpv6.addr = 0xFFFF0A000001 ∧ ip r.hi.getIpv6.addr = 0xFFFF0A000009 ∧ r.hi.portDefined = true := by
  obtain ⟨x, hx, hx'⟩ := boundsEnv_gate namesParser "80".toList (.inl (by decide))
  obtain ⟨y, hy, hy'⟩ := boundsEnv_last namesParser "80".toList (.inl (by decide))
  obtain ⟨r, h1, h2, h3, h4, h5⟩ := ((C129_both boundsEnv namesParser " gate-last:80".toList "gate-last:80".toList "gate".toList "last".toList "80".toList
    (namesParser_looksUp _ (by decide)) ⟨" ".toList, [], rfl, by decide, by decide, by decide, by decide⟩
    (.port (s := "gate-last".toList) (by decide) (by decide) (by decide) (by decide) (.inl (.inl (by decide)))) (by decide) (by decide) (by decide)).2.2
    x 0 y 0 hx hy).1 (.inl (by decide))
  exact ⟨r, h1, h2, h3, (Parser.number_of_holds h4.holds).trans hx', (Parser.number_of_holds h5.holds).trans hy', h5.portDefined.2 (by decide)⟩

-- C129_from and C129_to.
example : ∃ r, Reads boundsEnv namesParser "gate-".toList [r] 0 ∧ r.hasTo = false ∧ ip r.lo.getIpv6.addr = 0xFFFF0A000001 := by
  obtain ⟨x, hx, hx'⟩ := boundsEnv_gate namesParser [] (.inl (by decide))
  obtain ⟨r, h1, h2, h3, h4⟩ := (C129_from boundsEnv namesParser "gate-".toList "gate-".toList "gate".toList []
    (namesParser_looksUp _ (by decide)) (trims_self (by decide) (by decide))
    (.plain (s := "gate-".toList) (by decide) (by decide) (by decide)) (by decide) (by decide)).1 x 0 hx
  exact ⟨r, h1, h3, (Parser.number_of_holds h4.holds).trans hx'⟩

example : ∃ r, Reads boundsEnv namesParser "[-gate]".toList [r] 0 ∧ r.hasFrom = false ∧ ip r.hi.getIpv6.addr = 0xFFFF0A000001 := by
  obtain ⟨x, hx, hx'⟩ := boundsEnv_gate namesParser [] (.inl (by decide))
  obtain ⟨r, h1, h2, h3, h4⟩ := (C129_to boundsEnv namesParser "[-gate]".toList "[-gate]".toList "gate".toList []
    (namesParser_looksUp _ (by decide)) (trims_self (by decide) (by decide)) (.bracket (s := "-gate".toList) (by decide)) (by decide)).1 x 0 hx
  exact ⟨r, h1, h2, (Parser.number_of_holds h4.holds).trans hx'⟩

-- A host with two addresses is not a bound, nor is an unknown one.
example : (Parser.parse boundsEnv "farm-last".toList namesParser).1.getErrorCount = 1
    ∧ (Parser.parse boundsEnv "gate-farm".toList namesParser).1.getErrorCount = 1
    ∧ (Parser.parse boundsEnv "what-farm".toList namesParser).1.getErrorCount = 1
    ∧ (Parser.parse boundsEnv "-".toList namesParser).1.getErrorCount = 1 := by decide +kernel

end Verif
