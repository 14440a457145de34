import Verif.Props.DefaultAddress
import Verif.Props.StringToAddr

/-!
# Property C92: the names which are looked up
-/

namespace Verif

open Spec

/-- A parser which reads one entry with lookups (its default), and neither masks nor ranges. -/
structure LooksUp (p : Parser) (inp : Str) : Prop where
  lookup : p.config.flags .addressLookup = true
  mask : p.config.flags .mask = false
  range : p.config.flags .addressRange = false ∨ '-' ∉ inp
  one : OneEntry p inp
  sort : Unsorted p

/-- The entry `t` is a question about the host `u`, with the port `q` (empty when there is none). Where ports are not allowed, one is
still taken after a name without a dot (or a bracket anywhere). An entry without an address asks for the default address. -/
inductive Asks (p : Parser) : (t u q : Str) → Prop
  | name {u : Str} (hne : u ≠ []) (h : ':' ∉ u) (hb : u.head? ≠ some '[') : Asks p u u []
  | port {u q : Str} (hne : u ≠ []) (h : ':' ∉ u) (hb : u.head? ≠ some '[') (hq : ':' ∉ q)
      (hp : PortsAllowed p ∨ '.' ∉ u ∨ ']' ∈ u ∨ ']' ∈ q) : Asks p (u ++ ':' :: q) u q
  | six {u : Str} (h : 2 ≤ u.count ':') (hb : u.head? ≠ some '[') : Asks p u u []
  | bracket {u : Str} (hne : u ≠ []) (h : ']' ∉ u) : Asks p ('[' :: u ++ [']']) u []
  | bracketPort {u q : Str} (hne : u ≠ []) (h : ']' ∉ u) (hp : PortsAllowed p) : Asks p ('[' :: u ++ ']' :: ':' :: q) u q
  | default {t q : Str} (hr : p.config.flags .requiredAddress = false) (h : NoAddress p t q) : Asks p t (defaultText p.config t) q
  | defaultPort {q : Str} (hr : p.config.flags .requiredAddress = false) (hq : ':' ∉ q) (h4 : p.config.defaultAddress4 = [])
      (h6 : p.config.defaultAddress6 ≠ []) : Asks p (':' :: q) p.config.defaultAddress6 q

/-- The service asked for: the port written, else the default port, else zero. -/
def serviceAsked (p : Parser) (q : Str) : Str :=
  if q ≠ [] then cstr q else if p.config.defaultPort = -1 then "0".toList else intStr p.config.defaultPort

/-- The question: the host, the service, and the protocol when it is TCP or UDP. -/
def answerTo (env : ParseEnv) (p : Parser) (u q : Str) : GaiAnswer :=
  env.getaddrinfo (cstr u) (serviceAsked p q) false
    (if p.config.protocol = IPPROTO_TCP ∨ p.config.protocol = IPPROTO_UDP then p.config.protocol else 0)

/-- An IP address of a wrong size. -/
def wrongSize : AddrInfo → Bool
  | .inet len _ _ => len != sizeofIn
  | .inet6 len _ _ => len != sizeofIn6
  | .other _ => false

/-- Not an IP address. -/
def noAddressFamily : AddrInfo → Bool
  | .other _ => true
  | _ => false

/-- The number of errors about the answers: one for each IP address of a wrong size, and one for all the answers which are not IP
addresses. -/
def badAnswers (l : List AddrInfo) : Nat := (l.filter wrongSize).length + if l.any noAddressFamily then 1 else 0

/-- The range is the address of an answer, with the mask of one address; the port counts as defined when it was written. -/
structure FromAnswer (u q : Str) (x : AddrInfo) (r : Range) : Prop extends Stands u x r where
  mask : ip r.lo.getMask = 2 ^ 128 - 1
  portDefined : r.lo.portDefined = true ↔ q ≠ []

/-! ### Lemmas -/

namespace Parser

section
variable {env : ParseEnv} {p : Parser}

theorem each_mono {α β : Type} {R S : α → β → Prop} (h : ∀ a b, R a b → S a b) {l : List α} {l' : List β} (he : Each R l l') : Each S l l' := by
  induction he with
  | nil => exact .nil
  | cons h1 _ ih => exact .cons (h _ _ h1) ih

theorem emit_then {α : Type} (m : Str) (k : PM α) (p : Parser) : ∃ msg, (emitError m >>= fun _ => k) p = k (emitAll [msg] p) :=
  ⟨m, by rw [PM.bind_def, emitError_apply]⟩

/-- What the loop over the answers does, exactly. -/
theorem loop_exact (t : Str) (d : Bool) (l : List AddrInfo) (hl : ∀ x ∈ l, SafeAnswer x) (first : Bool) (result : List Range) (p : Parser) :
    ∃ errs l', addrinfoLoop t d l first result p = (emitAll errs p, .ok (result ++ l'))
      ∧ errs.length = (l.filter wrongSize).length + (if first && l.any noAddressFamily then 1 else 0)
      ∧ Each (fun x r => Stands t x r ∧ r.lo.mask = Vector.replicate 16 0xFF ∧ r.lo.portDefined = d) (l.filter usable) l' := by
  induction l generalizing first result p with
  | nil => exact ⟨[], [], by rw [List.append_nil, emitAll_nil]; rfl, by simp, .nil⟩
  | cons x l ih =>
    have ih' := fun first result p => ih (fun y hy => hl y (List.mem_cons_of_mem _ hy)) first result p
    have hx := hl x List.mem_cons_self
    have good : ∀ r, usable x = true → wrongSize x = false → noAddressFamily x = false → Stands t x r ∧ r.lo.mask = Vector.replicate 16 0xFF ∧ r.lo.portDefined = d →
        addrinfoLoop t d (x :: l) first result p = addrinfoLoop t d l first (result ++ [r]) p →
        ∃ errs l', addrinfoLoop t d (x :: l) first result p = (emitAll errs p, .ok (result ++ l'))
      ∧ errs.length = ((x :: l).filter wrongSize).length + (if first && (x :: l).any noAddressFamily then 1 else 0)
      ∧ Each (fun x r => Stands t x r ∧ r.lo.mask = Vector.replicate 16 0xFF ∧ r.lo.portDefined = d) ((x :: l).filter usable) l' := by
      intro r h1 h2 h3 h4 h5
      obtain ⟨errs, l', g1, g2, g3⟩ := ih' first (result ++ [r]) p
      refine ⟨errs, r :: l', by rw [h5, g1, List.append_assoc]; rfl, ?_, ?_⟩
      · rw [g2, List.filter_cons_of_neg (by rw [h2]; exact Bool.false_ne_true), List.any_cons, h3, Bool.false_or]
      · rw [List.filter_cons_of_pos h1]
        exact .cons h4 g3
    have wrong : usable x = false → wrongSize x = true → noAddressFamily x = false →
        (∃ msg, addrinfoLoop t d (x :: l) first result p = addrinfoLoop t d l first result (emitAll [msg] p)) →
        ∃ errs l', addrinfoLoop t d (x :: l) first result p = (emitAll errs p, .ok (result ++ l'))
      ∧ errs.length = ((x :: l).filter wrongSize).length + (if first && (x :: l).any noAddressFamily then 1 else 0)
      ∧ Each (fun x r => Stands t x r ∧ r.lo.mask = Vector.replicate 16 0xFF ∧ r.lo.portDefined = d) ((x :: l).filter usable) l' := by
      rintro h1 h2 h3 ⟨msg, h5⟩
      obtain ⟨errs, l', g1, g2, g3⟩ := ih' first result (emitAll [msg] p)
      refine ⟨[msg] ++ errs, l', by rw [h5, g1, emitAll_append], ?_, ?_⟩
      · rw [List.length_append, g2, List.filter_cons_of_pos h2, List.any_cons, h3, Bool.false_or, List.length_cons, List.length_cons, List.length_nil]
        omega
      · rw [List.filter_cons_of_neg (by rw [h1]; exact Bool.false_ne_true)]
        exact g3
    cases x with
    | inet len protocol sa =>
      by_cases hlen : len ≠ sizeofIn
      · refine wrong (beq_eq_false_iff_ne.2 hlen) (bne_iff_ne.2 hlen) rfl ?_
        rw [addrinfoLoop, if_pos hlen]
        exact emit_then _ _ _
      · have h := Classical.not_not.1 hlen
        obtain ⟨hf, hp⟩ := hx h
        obtain ⟨r, h1, h2⟩ := stands_inet (t := t) (len := len) (d := d) hf hp
        refine good r (beq_iff_eq.2 h) (by rw [wrongSize, h]; rfl) rfl h2 ?_
        rw [addrinfoLoop, if_neg hlen, h1, PM.lift_ok_bind]
    | inet6 len protocol sa =>
      by_cases hlen : len ≠ sizeofIn6
      · refine wrong (beq_eq_false_iff_ne.2 hlen) (bne_iff_ne.2 hlen) rfl ?_
        rw [addrinfoLoop, if_pos hlen]
        exact emit_then _ _ _
      · have h := Classical.not_not.1 hlen
        obtain ⟨hf, hp⟩ := hx h
        obtain ⟨r, h1, h2⟩ := stands_inet6 (t := t) (len := len) (d := d) hf hp
        refine good r (beq_iff_eq.2 h) (by rw [wrongSize, h]; rfl) rfl h2 ?_
        rw [addrinfoLoop, if_neg hlen, h1, PM.lift_ok_bind]
    | other family =>
      cases first with
      | true =>
        obtain ⟨errs, l', g1, g2, g3⟩ := ih' false result
          (emitAll ["Unsupported address family ".toList ++ intStr family ++ ".".toList] p)
        refine ⟨["Unsupported address family ".toList ++ intStr family ++ ".".toList] ++ errs, l', ?_, ?_, g3⟩
        · rw [addrinfoLoop, if_pos rfl, PM.bind_def, emitError_apply]
          dsimp only
          rw [g1, emitAll_append]
        · rw [List.length_append, g2]
          simp [wrongSize, noAddressFamily]
          omega
      | false =>
        obtain ⟨errs, l', g1, g2, g3⟩ := ih' false result p
        refine ⟨errs, l', ?_, ?_, g3⟩
        · rw [addrinfoLoop, if_neg Bool.false_ne_true]
          exact g1
        · rw [g2]
          simp [wrongSize]

theorem cstr_intStr (n : Int) : Verif.cstr (intStr n) = intStr n := by
  have h : ∀ c ∈ Inet.decStr n.natAbs, c ≠ '\x00' := fun c hc =>
    (by decide : ∀ c ∈ "0123456789".toList, c ≠ '\x00') c (Inet.decStr_chars _ c hc)
  refine cstr_noNul fun c hc => ?_
  rw [intStr] at hc
  split at hc
  · rcases List.mem_cons.1 hc with rfl | hc
    · decide
    · exact h c hc
  · exact h c hc

/-- The question which is asked about an address and a port. -/
theorem parseAddressPort_lookup (hl : p.config.flags .addressLookup = true) {u q : Str} (hu : u ≠ [])
    (hr : p.config.flags .requiredPort = false ∨ q ≠ []) (v6 : Bool) :
    ∃ q', parseAddressPort env u q [] v6 p = lookupAddress env u q' (decide (q ≠ [])) [] p
      ∧ (if q' = [] then ['0'] else cstr q') = serviceAsked p q := by
  have hd : ∀ c : Config, intStr c.defaultPort ≠ [] := fun c => intStr_nonempty _
  have hcs : cstr (intStr p.config.defaultPort) = intStr p.config.defaultPort := cstr_intStr _
  by_cases hq : q = []
  · subst hq
    have hr : p.config.flags .requiredPort = false := hr.resolve_right (fun h => h rfl)
    by_cases hdp : p.config.defaultPort = -1
    · refine ⟨[], ?_, ?_⟩
      · rw [parseAddressPort, PM.config_bind]
        simp [hr, hdp, hu, hl]
      · simp [serviceAsked, hdp]
    · refine ⟨intStr p.config.defaultPort, ?_, ?_⟩
      · rw [parseAddressPort, PM.config_bind]
        simp [hr, hdp, hu, hl]
      · simp [serviceAsked, hdp, hd, hcs]
  · refine ⟨q, ?_, ?_⟩
    · rw [parseAddressPort, PM.config_bind]
      simp [hq, hu, hl]
    · rw [serviceAsked, if_pos hq, if_neg hq]

theorem parseAddressPort_required (hr : p.config.flags .requiredPort = true) (u : Str) (v6 : Bool) :
    Refuses (parseAddressPort env u [] [] v6) p := by
  refine ⟨"Required port is missing.".toList, ?_⟩
  rw [parseAddressPort, PM.config_bind]
  simp [hr, PM.bind_def]

theorem parseAddressPort_needs (hr : p.config.flags .requiredAddress = true) (q : Str) (v6 : Bool) :
    Refuses (parseAddressPort env [] q [] v6) p := by
  unfold Refuses
  rw [parseAddressPort, PM.config_bind]
  by_cases h : (!decide (q ≠ []) && p.config.flags .requiredPort) = true
  · dsimp only
    rw [if_pos h]
    exact refuses_error _ p
  · dsimp only
    rw [if_neg h, if_pos (by rw [hr]; decide)]
    exact refuses_error _ p

/-- The entry is read as the question it asks. -/
theorem asks_reads {t u q : Str} (hr : p.config.flags .addressRange = false ∨ '-' ∉ t) (h : Asks p t u q) :
    u ≠ [] ∧ ∃ v4 v6, parseAddress env t [] [] p
      = (parseAddressPort env u q [] v6 >>= fun l => (Pure.pure (v4, l) : PM (Bool × List Range))) p := by
  have key : ∀ {m : PM (List Range)} {u : Str} (v4 v6 : Bool), (p.config.flags .addressRange = false ∨ '-' ∉ u) →
      parseAddress env t [] [] p = (m >>= fun l => (Pure.pure (v4, l) : PM (Bool × List Range))) p →
      m p = parseAddressRangePort env u q [] v6 p →
      ∃ v4 v6, parseAddress env t [] [] p
        = (parseAddressPort env u q [] v6 >>= fun l => (Pure.pure (v4, l) : PM (Bool × List Range))) p := by
    intro m u v4 v6 hu h1 h2
    refine ⟨v4, v6, ?_⟩
    rw [h1, PM.bind_def, PM.bind_def, h2, parseAddressRangePort_plain hu]
  obtain ⟨v4, h1, _, h3⟩ := parseAddress_dispatch env p t
  cases h with
  | name hne h hb =>
    refine ⟨hne, ?_⟩
    cases v4 with
    | true =>
      rw [if_pos rfl] at h3
      refine key true false hr h3 ?_
      rw [parseAddress4, PM.config_bind, splitFirst_none.2 h]
    | false =>
      rw [if_neg Bool.false_ne_true] at h3
      refine key false true hr h3 ?_
      rw [parseAddress6, PM.config_bind, if_neg hb, if_neg (by rw [List.count_eq_zero.2 h]; decide)]
  | port hne h hb hq hp =>
    refine ⟨hne, ?_⟩
    have hu : p.config.flags .addressRange = false ∨ '-' ∉ u := hr.imp_right fun h h' => h (List.mem_append_left _ h')
    have hk : (u ++ ':' :: q).count ':' = 1 := by
      rw [List.count_append, List.count_cons_self, List.count_eq_zero.2 h, List.count_eq_zero.2 hq]
    have hhd : (u ++ ':' :: q).head? = u.head? := head_append hne _
    have h4 := parseAddress_eq env (u ++ ':' :: q) [] [] p ⟨by simp, .inr (by
      rw [hhd]
      exact fun h' => h (List.mem_of_head? h'))⟩
    cases hv : asIpv4 p.config (u ++ ':' :: q) with
    | true =>
      rw [hv, if_pos rfl] at h4
      refine key true false hu h4 ?_
      have hports : Ports p.config := by
        refine Classical.byContradiction fun hn => ?_
        have hp := hp.resolve_left hn
        rw [asIpv4, if_neg (by omega)] at hv
        by_cases h5 : (u ++ ':' :: q).head? = some '[' ∨ ']' ∈ u ++ ':' :: q
        · rw [if_pos h5] at hv
          cases hv
        · rw [if_neg h5, if_pos (ports_not.2 hn), splitFirst_append h] at hv
          have hv := of_decide_eq_true hv
          rcases hp with hp | hp | hp
          · exact hp hv
          · exact h5 (.inr (List.mem_append_left _ hp))
          · exact h5 (.inr (List.mem_append_right _ (List.mem_cons_of_mem _ hp)))
      rw [parseAddress4, PM.config_bind, splitFirst_append h]
      dsimp only
      rw [if_pos (ports_or.2 hports)]
    | false =>
      rw [hv, if_neg Bool.false_ne_true] at h4
      refine key false true hu h4 ?_
      rw [parseAddress6, PM.config_bind, if_neg (by rw [hhd]; exact hb), if_pos hk, splitFirst_append h]
  | six h hb =>
    refine ⟨(by rintro rfl; simp at h), ?_⟩
    cases v4 with
    | true => exact absurd (h1 rfl).1 (by omega)
    | false =>
      rw [if_neg Bool.false_ne_true] at h3
      refine key false true hr h3 ?_
      rw [parseAddress6, PM.config_bind, if_neg hb, if_neg (by omega)]
  | bracket hne h =>
    refine ⟨hne, ?_⟩
    cases v4 with
    | true => exact absurd rfl (h1 rfl).2
    | false =>
      rw [if_neg Bool.false_ne_true] at h3
      refine key false true (hr.imp_right fun h h' => h (by simp [h'])) h3 ?_
      rw [parseAddress6, PM.config_bind, if_pos (show ('[' :: u ++ [']']).head? = some '[' from rfl)]
      have e : splitFirst ']' (('[' :: u ++ [']']).drop 1) = some (u, []) := splitFirst_append h
      rw [e]
  | bracketPort hne h hp =>
    refine ⟨hne, ?_⟩
    cases v4 with
    | true => exact absurd rfl (h1 rfl).2
    | false =>
      rw [if_neg Bool.false_ne_true] at h3
      refine key false true (hr.imp_right fun h h' => h (by simp [h'])) h3 ?_
      rw [parseAddress6, PM.config_bind, if_pos (show ('[' :: u ++ ']' :: ':' :: q).head? = some '[' from rfl)]
      have e : splitFirst ']' (('[' :: u ++ ']' :: ':' :: q).drop 1) = some (u, ':' :: q) := splitFirst_append h
      rw [e]
      have hf : ¬ (!p.config.flags .port && !p.config.flags .requiredPort) = true := fun h => ports_not.1 h hp
      have e2 : ∀ x y z : PM (List Range), (if ':' ≠ ':' then x else
          if (!p.config.flags .port && !p.config.flags .requiredPort) = true then y else z) = z := fun x y z => by
        rw [if_neg (not_not_intro rfl), if_neg hf]
      exact (congrArg (fun m : PM (List Range) => m p = parseAddressRangePort env u q [] true p) (e2 _ _ _)).mpr rfl
  | default hra h =>
    refine ⟨?_, leftOut_reads hra h⟩
    unfold defaultText
    repeat' split
    · decide
    · assumption
    · assumption
    · assumption
    · decide
  | defaultPort hra hq h4 h6 =>
    refine ⟨h6, ?_⟩
    have hk : (':' :: q).count ':' = 1 := by rw [List.count_cons_self, List.count_eq_zero.2 hq]
    have h3 := parseAddress_leftOut env p (':' :: q) (by omega) (.inr rfl)
    have hs : splitFirst ':' (':' :: q) = some ([], q) := splitFirst_append (a := []) (by simp)
    rw [if_pos ⟨h4, h6⟩] at h3
    have hm : parseAddress6 env (':' :: q) ((':' :: q).count ':') [] p = parseAddressPort env p.config.defaultAddress6 q [] true p := by
      rw [parseAddress6, PM.config_bind, if_neg (by simp), if_pos hk, hs]
      dsimp only
      rw [parseAddressRangePort_plain (.inr (by simp)), parseAddressPort_nil hra]
      simp [usedDefault, h6]
    refine ⟨false, true, ?_⟩
    rw [h3, PM.bind_def, PM.bind_def, hm]

/-- An entry which asks no question is refused. -/
theorem no_question_refuses {t : Str} (h : ¬ ∃ u q, Asks p t u q) :
    ∃ v4 msg, parseAddress env t [] [] p = (emitAll [msg] p, .ok (v4, [])) := by
  have fin : ∀ {m : PM (List Range)} {v4 : Bool}, parseAddress env t [] [] p = (m >>= fun l => (Pure.pure (v4, l) : PM (Bool × List Range))) p →
      Refuses m p → ∃ v4 msg, parseAddress env t [] [] p = (emitAll [msg] p, .ok (v4, [])) := by
    rintro m v4 h1 ⟨msg, h2⟩
    refine ⟨v4, msg, ?_⟩
    rw [h1, PM.bind_def, h2]
    rfl
  have plain : ∀ (q : Str) (v6 : Bool), p.config.flags .requiredAddress = true → Refuses (parseAddressRangePort env [] q [] v6) p := by
    intro q v6 hr
    obtain ⟨msg, h⟩ := parseAddressPort_needs (env := env) hr q v6
    exact ⟨msg, (parseAddressRangePort_plain (.inr (by simp)) q v6).trans h⟩
  have req : ∀ {q : Str}, NoAddress p t q → p.config.flags .requiredAddress = true := by
    intro q hn
    cases hra : p.config.flags .requiredAddress with
    | true => rfl
    | false => exact absurd ⟨_, q, .default hra hn⟩ h
  obtain ⟨v4, h1, _, h3⟩ := parseAddress_dispatch env p t
  by_cases hb : t.head? = some '['
  · have hv : v4 = false := by
      cases v4 with
      | false => rfl
      | true => exact absurd hb (h1 rfl).2
    subst hv
    rw [if_neg Bool.false_ne_true] at h3
    refine fin h3 ?_
    unfold Refuses
    rw [parseAddress6, PM.config_bind, if_pos hb]
    obtain ⟨s, rfl⟩ : ∃ s, t = '[' :: s := by
      cases t with
      | nil => cases hb
      | cons x s => exact ⟨s, by cases hb; rfl⟩
    have e : ('[' :: s).drop 1 = s := rfl
    rw [e]
    cases hs : splitFirst ']' s with
    | none => exact refuses_error _ p
    | some x =>
      obtain ⟨u, q⟩ := x
      obtain ⟨rfl, hu⟩ := splitFirst_some hs
      cases q with
      | nil =>
        by_cases h0 : u = []
        · subst h0
          exact plain [] true (req (q := []) (.inl (.bracket (u := []))))
        · exact absurd ⟨u, [], .bracket h0 hu⟩ h
      | cons x q =>
        dsimp only
        by_cases hx : x ≠ ':'
        · rw [if_pos hx]
          exact refuses_error _ p
        · rw [if_neg hx]
          have hx := Classical.not_not.1 hx
          subst hx
          by_cases hf : (!p.config.flags .port && !p.config.flags .requiredPort) = true
          · rw [if_pos hf]
            exact refuses_error _ p
          · rw [if_neg hf]
            have hp : PortsAllowed p := Classical.byContradiction fun h => hf (ports_not.2 h)
            by_cases h0 : u = []
            · subst h0
              exact plain q true (req (q := q) (.inl (.port6 (u := []) hp)))
            · exact absurd ⟨u, q, .bracketPort h0 hu hp⟩ h
  · have hk2 : t.count ':' < 2 := Classical.byContradiction fun h2 => h ⟨t, [], .six (by omega) hb⟩
    cases hs : splitFirst ':' t with
    | none =>
      have hn := splitFirst_none.1 hs
      have h0 : t = [] := Classical.byContradiction fun h0 => h ⟨t, [], .name h0 hn hb⟩
      subst h0
      have hreq := req (q := []) (.inl (.bare4 (by simp)))
      refine fin h3 ?_
      cases v4 with
      | true =>
        rw [if_pos rfl]
        exact plain [] false hreq
      | false =>
        rw [if_neg Bool.false_ne_true]
        exact plain [] true hreq
    | some x =>
      obtain ⟨u, q⟩ := x
      obtain ⟨rfl, hu⟩ := splitFirst_some hs
      rw [List.count_append, List.count_cons_self] at hk2
      have hq : ':' ∉ q := List.count_eq_zero.1 (by omega)
      have hk : (u ++ ':' :: q).count ':' = 1 := by
        rw [List.count_append, List.count_cons_self, List.count_eq_zero.2 hu, List.count_eq_zero.2 hq]
      by_cases h0 : u = []
      · subst h0
        have h4 := parseAddress_leftOut env p ([] ++ ':' :: q) (by omega) (.inr rfl)
        by_cases hc : p.config.defaultAddress4 = [] ∧ p.config.defaultAddress6 ≠ []
        · rw [if_pos hc] at h4
          refine fin h4 ?_
          have hreq : p.config.flags .requiredAddress = true := by
            cases hra : p.config.flags .requiredAddress with
            | true => rfl
            | false => exact absurd ⟨_, q, .defaultPort hra hq hc.1 hc.2⟩ h
          obtain ⟨msg, hm⟩ := plain q true hreq
          refine ⟨msg, ?_⟩
          rw [parseAddress6, PM.config_bind, if_neg hb, if_pos hk, hs]
          exact hm
        · rw [if_neg hc] at h4
          refine fin h4 ?_
          unfold Refuses
          rw [parseAddress4, PM.config_bind, hs]
          dsimp only
          by_cases hf : (p.config.flags .port || p.config.flags .requiredPort) = true
          · rw [if_pos hf]
            exact plain q false (req (q := q) (.inl (.port4 (u := []) hu hq (ports_or.1 hf))))
          · rw [if_neg hf]
            exact refuses_error _ p
      · have hhd : (u ++ ':' :: q).head? = u.head? := head_append h0 _
        have hno : ¬ (PortsAllowed p ∨ '.' ∉ u ∨ ']' ∈ u ∨ ']' ∈ q) := fun hp => h ⟨u, q, .port h0 hu (hhd ▸ hb) hq hp⟩
        have h4 := parseAddress_eq env (u ++ ':' :: q) [] [] p ⟨by simp, .inr (by
          rw [hhd]
          exact fun h' => hu (List.mem_of_head? h'))⟩
        have hv : asIpv4 p.config (u ++ ':' :: q) = true := by
          rw [asIpv4, if_neg (by omega), if_neg, if_pos (ports_not.2 fun h => hno (.inl h)), hs]
          · exact decide_eq_true (Classical.byContradiction fun h => hno (.inr (.inl h)))
          · rintro (h5 | h5)
            · exact hb h5
            · rw [List.mem_append, List.mem_cons] at h5
              rcases h5 with h5 | h5 | h5
              · exact hno (.inr (.inr (.inl h5)))
              · exact absurd h5 (by decide)
              · exact hno (.inr (.inr (.inr h5)))
        rw [hv, if_pos rfl] at h4
        refine fin h4 ?_
        unfold Refuses
        rw [parseAddress4, PM.config_bind, hs]
        dsimp only
        rw [if_neg (fun h => hno (.inl (ports_or.1 h)))]
        exact refuses_error _ p

end

end Parser

theorem parse_looksUp {env : ParseEnv} {p : Parser} {inp t : Str} (h : LooksUp p inp) (ht : Trims inp t) {q : Parser} {v4 : Bool}
    {l : List Range} (hp : Parser.parseAddress env t [] [] p = (q, .ok (v4, l))) : Parser.parse env inp p = (q, .ok l) := by
  rw [parse_one_unsorted env inp p h.one h.sort, Parser.parseCidr, PM.config_bind, trims_eq ht]
  dsimp only
  rw [if_neg (by rw [h.mask]; exact Bool.false_ne_true), PM.bind_of_ok hp]
  rfl

theorem asked_reads {env : ParseEnv} {p : Parser} {inp t u q : Str} (h : LooksUp p inp) (ht : Trims inp t) (ha : Asks p t u q)
    (hq : p.config.flags .requiredPort = false ∨ q ≠ []) :
    ∃ q', (∀ p' l, Parser.lookupAddress env u q' (decide (q ≠ [])) [] p = (p', .ok l) → Parser.parse env inp p = (p', .ok l))
      ∧ (if q' = [] then ['0'] else cstr q') = serviceAsked p q := by
  obtain ⟨hu, v4, v6, h1⟩ := Parser.asks_reads (env := env) (h.range.imp_right fun h' h2 => h' (trims_mem ht _ h2)) ha
  obtain ⟨q', h2, h3⟩ := Parser.parseAddressPort_lookup (env := env) h.lookup hu hq v6
  refine ⟨q', fun p' l hl => parse_looksUp h ht (v4 := v4) ?_, h3⟩
  rw [h1, PM.bind_def, h2, hl]
  rfl

theorem emitted {p : Parser} {errs : List Str} : (Parser.emitAll errs p).config = p.config
    ∧ (Parser.emitAll errs p).getErrorCount = p.getErrorCount + errs.length ∧ p.errorMessages <+: (Parser.emitAll errs p).errorMessages := by
  refine ⟨rfl, ?_, ?_⟩
  · simp [Parser.emitAll, Parser.getErrorCount]
  · simp [Parser.emitAll, Parser.errorMessages]

/-! ### C92 -/

/-- C92: an entry which asks a question is read as the addresses of the answers, in their order; the answers which are not usable are
left out with an error. -/
theorem C92_found (env : ParseEnv) (p : Parser) (inp t u q : Str) (l : List AddrInfo) (h : LooksUp p inp) (ht : Trims inp t)
    (ha : Asks p t u q) (hq : p.config.flags .requiredPort = false ∨ q ≠ []) (hl : answerTo env p u q = .list l)
    (hs : ∀ x ∈ l, SafeAnswer x) :
    ∃ p' rs, Parser.parse env inp p = (p', .ok rs) ∧ Each (FromAnswer u q) (l.filter usable) rs ∧ p'.config = p.config
      ∧ p'.getErrorCount = p.getErrorCount + badAnswers l ∧ p.errorMessages <+: p'.errorMessages := by
  obtain ⟨q', h1, h2⟩ := asked_reads (env := env) h ht ha hq
  obtain ⟨errs, rs, g1, g2, g3⟩ := Parser.loop_exact u (decide (q ≠ [])) l hs true [] p
  obtain ⟨e1, e2, e3⟩ := emitted (p := p) (errs := errs)
  refine ⟨_, rs, h1 (Parser.emitAll errs p) rs ?_, Parser.each_mono (fun x r hr => ⟨hr.1, by rw [Addr.getMask, hr.2.1]; decide, by rw [hr.2.2, decide_eq_true_eq]⟩) g3, e1, ?_, e3⟩
  · rw [Parser.lookupAddress, PM.config_bind, h2, show env.getaddrinfo (cstr u) (serviceAsked p q) false (Parser.hintProtocol p.config.protocol) = .list l from hl]
    exact g1
  · rw [e2, g2, badAnswers, Bool.true_and]

/-- C92: when the question has no answer, there is no range, and one more error. -/
theorem C92_unknown (env : ParseEnv) (p : Parser) (inp t u q : Str) (n e : Int) (h : LooksUp p inp) (ht : Trims inp t)
    (ha : Asks p t u q) (hq : p.config.flags .requiredPort = false ∨ q ≠ []) (hl : answerTo env p u q = .error n e) :
    ∃ p', Parser.parse env inp p = (p', .ok []) ∧ p'.config = p.config ∧ p'.getErrorCount = p.getErrorCount + 1
      ∧ p.errorMessages <+: p'.errorMessages := by
  obtain ⟨q', h1, h2⟩ := asked_reads (env := env) h ht ha hq
  have hm : Parser.Refuses (Parser.lookupAddress env u q' (decide (q ≠ [])) []) p := by
    unfold Parser.Refuses
    rw [Parser.lookupAddress, PM.config_bind, h2, show env.getaddrinfo (cstr u) (serviceAsked p q) false (Parser.hintProtocol p.config.protocol) = .error n e from hl]
    exact Parser.refuses_error _ p
  obtain ⟨msg, hm⟩ := hm
  exact ⟨_, h1 _ [] hm, emitted⟩

/-- C92: an entry without its mandatory port, or which asks no question, is refused without any lookup. -/
theorem C92_refused (env : ParseEnv) (p : Parser) (inp t : Str) (h : LooksUp p inp) (ht : Trims inp t)
    (hno : ¬ ∃ u q, Asks p t u q ∧ (p.config.flags .requiredPort = false ∨ q ≠ [])) :
    ∃ p', Parser.parse env inp p = (p', .ok []) ∧ p'.config = p.config ∧ p'.getErrorCount = p.getErrorCount + 1
      ∧ p.errorMessages <+: p'.errorMessages := by
  by_cases ha : ∃ u q, Asks p t u q
  · obtain ⟨u, q, ha⟩ := ha
    have hr : ¬ (p.config.flags .requiredPort = false ∨ q ≠ []) := fun hr => hno ⟨u, q, ha, hr⟩
    obtain ⟨_, v4, v6, h1⟩ := Parser.asks_reads (env := env) (h.range.imp_right fun h' h2 => h' (trims_mem ht _ h2)) ha
    have hq : q = [] := Classical.byContradiction fun hq => hr (.inr hq)
    subst hq
    obtain ⟨msg, h2⟩ := Parser.parseAddressPort_required (env := env) (p := p)
      (by cases hp : p.config.flags .requiredPort with
        | true => rfl
        | false => exact absurd (.inl hp) hr) u v6
    refine ⟨_, parse_looksUp h ht (v4 := v4) (l := []) (q := Parser.emitAll [msg] p) ?_, emitted⟩
    rw [h1, PM.bind_def, h2]
    rfl
  · obtain ⟨v4, msg, h1⟩ := Parser.no_question_refuses (env := env) ha
    exact ⟨_, parse_looksUp h ht h1, emitted⟩

/-- C92: with lookups a numeric address and a decimal port are read as without (C79), once for the protocol of the parser, or three
times when it is neither TCP nor UDP. -/
theorem C92_numeric (env : ParseEnv) (p : Parser) (inp t u q : Str) (n k : Nat) (henv : NumericService env) (h : LooksUp p inp)
    (ht : Trims inp t) (ha : Asks p t u q) (hq : p.config.flags .requiredPort = false ∨ q ≠ []) (hu : AddressOf u n) (hk : k ≤ 65535)
    (hs : serviceAsked p q = dec k) :
    ∃ rs, Parser.parse env inp p = (p, .ok rs)
      ∧ Each (fun protocol r => r.hasFrom = true ∧ r.hasTo = false ∧ ip r.lo.getIpv6.addr = n ∧ r.lo.getPort = k
            ∧ ip r.lo.getMask = 2 ^ 128 - 1 ∧ r.lo.hostname = u ∧ (r.lo.portDefined = true ↔ q ≠ []) ∧ r.lo.protocol = protocol)
          (if p.config.protocol = 6 ∨ p.config.protocol = 17 then [p.config.protocol] else [6, 17, 0]) rs := by
  obtain ⟨q', h1, h2⟩ := asked_reads (env := env) h ht ha hq
  obtain ⟨b, hb, hr⟩ := Parser.address_readable hu
  obtain ⟨rs, g1, g2⟩ := lookup_numeric (p := p) henv hr hk (decide (q ≠ [])) (h2.trans hs)
  refine ⟨rs, h1 p rs g1, ?_⟩
  have e : (if Parser.hintProtocol p.config.protocol = 0 then [6, 17, 0] else [Parser.hintProtocol p.config.protocol])
      = if p.config.protocol = 6 ∨ p.config.protocol = 17 then [p.config.protocol] else [(6 : Int), 17, 0] := by
    unfold Parser.hintProtocol
    by_cases hp : p.config.protocol = IPPROTO_TCP ∨ p.config.protocol = IPPROTO_UDP
    · rw [if_pos hp, if_pos (show p.config.protocol = 6 ∨ p.config.protocol = 17 from hp), if_neg]
      rcases hp with hp | hp <;> rw [hp] <;> decide
    · rw [if_neg hp, if_neg (show ¬ (p.config.protocol = 6 ∨ p.config.protocol = 17) from hp), if_pos rfl]
  rw [e] at g2
  refine Parser.each_mono (fun x r hr => ⟨hr.hasFrom, hr.hasTo, ?_, ?_, ?_, hr.hostname, ?_, hr.protocol⟩) g2
  · rw [hr.address]
    exact hb
  · have := hr.address
    rw [Addr.getIpv6] at this
    rw [Addr.getPort, this]
    show (swap16 (swap16 (BitVec.ofNat 16 k))).toNat = k
    rw [swap16_swap16, BitVec.toNat_ofNat, Nat.mod_eq_of_lt (by omega)]
  · rw [Addr.getMask, hr.mask]
    decide
  · rw [hr.portDefined, decide_eq_true_eq]

/-- `getaddrinfo()` with `AI_NUMERICSERV`, which the parser always asks for: a service which is not a number is an error. -/
def NoServiceNames (env : ParseEnv) : Prop :=
  ∀ node service numeric hint, (∃ c ∈ service, c.isDigit = false) → ∃ n e, env.getaddrinfo node service numeric hint = .error n e

/-- C92: the name of a service is never read as a port. -/
theorem C92_service_names (env : ParseEnv) (p : Parser) (inp t u q : Str) (henv : NoServiceNames env) (h : LooksUp p inp) (ht : Trims inp t)
    (ha : Asks p t u q) (hq : ∃ c ∈ cstr q, c.isDigit = false) :
    ∃ p', Parser.parse env inp p = (p', .ok []) ∧ p'.config = p.config ∧ p'.getErrorCount = p.getErrorCount + 1
      ∧ p.errorMessages <+: p'.errorMessages := by
  have hne : q ≠ [] := by
    rintro rfl
    obtain ⟨c, hc, _⟩ := hq
    cases hc
  obtain ⟨n, e, he⟩ := henv (cstr u) (serviceAsked p q) false (Parser.hintProtocol p.config.protocol) (by rw [serviceAsked, if_pos hne]; exact hq)
  exact C92_unknown env p inp t u q n e h ht ha (.inr hne) he

/-- C92, as documented (addr_parser.cpp:1689): the port may be a name such as `http`. -/
def C92_claim : Prop :=
  ∀ (env : ParseEnv) (p : Parser) (inp t u : Str) (l : List AddrInfo), NoServiceNames env → GlibcAnswers env → LooksUp p inp → Trims inp t →
    PortsAllowed p → Asks p t u "http".toList → answerTo env p u [] = .list l → l ≠ [] → ∃ r rs, (Parser.parse env inp p).2 = .ok (r :: rs)

theorem serviceEnv_no_names : NoServiceNames serviceEnv := by
  rintro node service numeric hint ⟨c, hc, hd⟩
  refine ⟨-8, 0, ?_⟩
  show (if service.all Char.isDigit then _ else GaiAnswer.error (-8) 0) = _
  rw [if_neg]
  intro h
  rw [List.all_eq_true] at h
  rw [h c hc] at hd
  cases hd

theorem create_looksUp (inp : Str) (h : inp ≠ []) : LooksUp Parser.create inp where
  lookup := by decide
  mask := by decide
  range := .inl (by decide)
  one := ⟨h, fun x _ => by
    rw [separates, show Parser.create.config.flags .multiAddressesCommas = false by decide,
      show Parser.create.config.flags .multiAddressesSpaces = false by decide,
      show Parser.create.config.flags .multiAddressesNewlines = false by decide]
    rfl, ⟨by decide, by decide⟩⟩
  sort := by unfold Unsorted; decide

/-- C92 is false as documented. -/
theorem C92_claim_fails : ¬ C92_claim := by
  intro h
  have ha : Asks Parser.create "1.2.3.4:http".toList "1.2.3.4".toList "http".toList :=
    .port (u := "1.2.3.4".toList) (by decide) (by decide) (by decide) (by decide) (.inl (.inl (by decide)))
  have ht : Trims "1.2.3.4:http".toList "1.2.3.4:http".toList := trims_self (by decide) (by decide)
  have hl := create_looksUp "1.2.3.4:http".toList (by decide)
  obtain ⟨r, rs, hr⟩ := h serviceEnv Parser.create _ _ _
    (spread 0 [.inet sizeofIn 0 { family := AF_INET, port := 0, addr := #v[1, 2, 3, 4], zero := Vector.replicate 8 0 }])
    serviceEnv_no_names serviceEnv_glibc hl ht (.inl (by decide)) ha
    (by decide +kernel) (by decide)
  obtain ⟨p', h1, _⟩ := C92_service_names serviceEnv Parser.create _ _ _ _ serviceEnv_no_names hl ht ha ⟨'h', by decide, by decide⟩
  rw [h1] at hr
  cases hr

/-- A name service which knows one name. -/
def hostsEnv : ParseEnv :=
  { sampleEnv with
    getaddrinfo := fun node _ _ hint =>
      if node = "gate".toList then
        .list (spread hint [.inet sizeofIn 0 { family := AF_INET, port := 0x5000, addr := #v[10, 0, 0, 1], zero := Vector.replicate 8 0 }])
      else .error (-2) 0 }

-- C92_found and C92_unknown: a name which is known and one which is not, by a parser as it is created.
example : ∃ p' rs, Parser.parse hostsEnv " gate:80".toList Parser.create = (p', .ok rs) ∧ rs.length = 3 ∧ p'.getErrorCount = 0 := by
  obtain ⟨p', rs, h1, h2, _, h3, _⟩ := C92_found hostsEnv Parser.create " gate:80".toList "gate:80".toList "gate".toList "80".toList
    (spread 0 [.inet sizeofIn 0 { family := AF_INET, port := 0x5000, addr := #v[10, 0, 0, 1], zero := Vector.replicate 8 0 }])
    (create_looksUp _ (by decide)) ⟨" ".toList, [], rfl, by decide, by decide, by decide, by decide⟩
    (.port (u := "gate".toList) (by decide) (by decide) (by decide) (by decide) (.inl (.inl (by decide)))) (.inl (by decide))
    (by decide +kernel) (by
      intro x hx
      rcases (by simpa [spread, retag] using hx : x = _ ∨ x = _ ∨ x = _) with rfl | rfl | rfl <;>
        exact fun _ => ⟨rfl, by unfold KnownProtocol; decide⟩)
  refine ⟨p', rs, h1, ?_, h3⟩
  cases h2 with
  | cons _ h2 => cases h2 with
    | cons _ h2 => cases h2 with
      | cons _ h2 => cases h2; rfl

example : ∃ p', Parser.parse hostsEnv "gates:80".toList Parser.create = (p', .ok []) ∧ p'.getErrorCount = 1 := by
  obtain ⟨p', h1, _, h2, _⟩ := C92_unknown hostsEnv Parser.create "gates:80".toList "gates:80".toList "gates".toList "80".toList (-2) 0
    (create_looksUp _ (by decide)) (trims_self (by decide) (by decide))
    (.port (u := "gates".toList) (by decide) (by decide) (by decide) (by decide) (.inl (.inl (by decide)))) (.inl (by decide)) (by decide +kernel)
  exact ⟨p', h1, h2⟩

-- C92_refused: a bracket which is not closed.
example : ∃ p', Parser.parse hostsEnv "[gate".toList Parser.create = (p', .ok []) ∧ p'.getErrorCount = 1 := by
  obtain ⟨p', h1, _, h2, _⟩ := C92_refused hostsEnv Parser.create "[gate".toList "[gate".toList (create_looksUp _ (by decide))
    (trims_self (by decide) (by decide)) (by
      rintro ⟨u, q, h, _⟩
      generalize ht : "[gate".toList = t at h
      cases h with
      | name _ _ hb => exact hb (by rw [← ht]; rfl)
      | port hne h hb hq hp => exact absurd (show ':' ∈ "[gate".toList by rw [ht]; simp) (by decide)
      | six h => rw [← ht] at h; exact absurd h (by decide)
      | bracket _ _ => exact absurd (show ']' ∈ "[gate".toList by rw [ht]; simp) (by decide)
      | bracketPort _ _ _ => exact absurd (show ']' ∈ "[gate".toList by rw [ht]; simp) (by decide)
      | default _ h =>
        subst ht
        rcases h with h | ⟨h, _⟩
        · rcases entry_inv h with ⟨h, _⟩ | h | ⟨h, _⟩ | h <;> cases h
        · cases h
      | defaultPort _ _ _ _ => cases ht)
  exact ⟨p', h1, h2⟩

-- C92_numeric: three addresses.
example : ∃ rs, Parser.parse serviceEnv "1.2.3.4:80".toList Parser.create = (Parser.create, .ok rs) ∧ rs.length = 3 := by
  obtain ⟨rs, h1, h2⟩ := C92_numeric serviceEnv Parser.create "1.2.3.4:80".toList "1.2.3.4:80".toList "1.2.3.4".toList "80".toList
    (0xFFFF00000000 + 0x01020304) 80
    serviceEnv_numeric (create_looksUp _ (by decide)) (trims_self (by decide) (by decide))
    (.port (u := "1.2.3.4".toList) (by decide) (by decide) (by decide) (by decide) (.inl (.inl (by decide)))) (.inl (by decide))
    (.inl ⟨0x01020304, by decide, by decide, by decide⟩) (by decide) (by decide)
  refine ⟨rs, h1, ?_⟩
  cases h2 with
  | cons _ h2 => cases h2 with
    | cons _ h2 => cases h2 with
      | cons _ h2 => cases h2; rfl

end Verif
