import Verif.Lemmas.ParserPost
import Verif.Lemmas.MaskText
import Verif.Lemmas.AddrText
import Verif.Props.AddressMask
import Verif.SpecComplaint

/-!
# Lemmas about the parser: its messages are true
-/

namespace Verif.Parser

open Spec

/-- With configuration `c`, `m` only appends messages which satisfy `P`, and what is known of the value returned, if any. -/
def Says {α : Type} (c : Config) (P : Str → Prop) (m : PM α) (Q : α → Prop) : Prop :=
  ∀ p : Parser, p.config = c → ∃ errs, (m p).1 = emitAll errs p ∧ (∀ e ∈ errs, P e) ∧ ∀ a, (m p).2 = .ok a → Q a

section
variable {c : Config} {P : Str → Prop}

theorem says_pure {α : Type} {a : α} {Q : α → Prop} (h : Q a) : Says c P (Pure.pure a : PM α) Q :=
  fun p _ => ⟨[], by simp, by simp, fun b hb => by cases hb; exact h⟩

theorem says_throw {α : Type} (e : Exc) (Q : α → Prop) : Says c P (PM.throw e : PM α) Q :=
  fun p _ => ⟨[], by simp, by simp, fun b hb => by cases hb⟩

theorem says_emit {msg : Str} (h : P msg) : Says c P (emitError msg) fun _ => True :=
  fun p _ => ⟨[msg], by rw [emitError_apply], by simpa using h, fun _ _ => trivial⟩

theorem says_lift {α : Type} {r : Res α} {Q : α → Prop} (h : ∀ a, r = .ok a → Q a) : Says c P (PM.lift r) Q :=
  fun p _ => ⟨[], by simp, by simp, fun b hb => h b hb⟩

theorem says_config {β : Type} {f : Config → PM β} {Q : β → Prop} (h : Says c P (f c) Q) : Says c P (PM.config >>= f) Q := by
  intro p hp
  rw [PM.config_bind, hp]
  exact h p hp

theorem says_getAllow {β : Type} {x : Allow} {f : Bool → PM β} {Q : β → Prop} (h : Says c P (f (c.flags x)) Q) :
    Says c P (getAllow x >>= f) Q := by
  intro p hp
  have e : (getAllow x >>= f) p = f (p.config.flags x) p := rfl
  rw [e, hp]
  exact h p hp

theorem says_errorCountNow {β : Type} {f : Int → PM β} {Q : β → Prop} (h : ∀ n, Says c P (f n) Q) :
    Says c P (errorCountNow >>= f) Q := by
  intro p hp
  have e : (errorCountNow >>= f) p = f p.errorCount p := rfl
  rw [e]
  exact h _ p hp

theorem says_bind {α β : Type} {m : PM α} {f : α → PM β} {R : α → Prop} {Q : β → Prop} (h1 : Says c P m R)
    (h2 : ∀ a, R a → Says c P (f a) Q) : Says c P (m >>= f) Q := by
  intro p hp
  obtain ⟨e1, h3, h4, h5⟩ := h1 p hp
  rw [PM.bind_def]
  cases hm : m p with
  | mk q r =>
    rw [hm] at h3 h5
    have hq : q.config = c := by rw [show q = emitAll e1 p from h3, emitAll_config]; exact hp
    cases r with
    | ok a =>
      obtain ⟨e2, g1, g2, g3⟩ := h2 a (h5 a rfl) q hq
      refine ⟨e1 ++ e2, ?_, ?_, g3⟩
      · show (f a q).1 = _
        rw [g1, show q = emitAll e1 p from h3, emitAll_append]
      · intro e he
        rcases List.mem_append.1 he with he | he
        · exact h4 e he
        · exact g2 e he
    | throw e => exact ⟨e1, h3, h4, fun _ hb => by cases hb⟩
    | ub w => exact ⟨e1, h3, h4, fun _ hb => by cases hb⟩

theorem says_mono {α : Type} {m : PM α} {Q R : α → Prop} (h : Says c P m Q) (hqr : ∀ a, Q a → R a) : Says c P m R :=
  fun p hp => by
    obtain ⟨e, h1, h2, h3⟩ := h p hp
    exact ⟨e, h1, h2, fun a ha => hqr a (h3 a ha)⟩

theorem says_any {α : Type} {m : PM α} {Q : α → Prop} (h : Says c P m Q) : Says c P m fun _ => True := says_mono h fun _ _ => trivial

theorem says_return {α : Type} {msg : Str} {a : α} {Q : α → Prop} (h : P msg) (hq : Q a) :
    Says c P (emitError msg >>= fun _ => (Pure.pure a : PM α)) Q :=
  says_bind (says_emit h) fun _ _ => says_pure hq

end

theorem intStr_signed_text (n : Int) : intStr n = signed n := by
  unfold intStr signed
  rw [decStr_dec]

section
variable {env : ParseEnv} {c : Config} {inp : Str}

/-- All the addresses are among the answers to one question. -/
def FromOne (env : ParseEnv) (c : Config) (inp : Str) (l : List Range) : Prop :=
  l.length ≤ 1 ∨ ∃ t q ans, Answer env c inp t q (.list ans) ∧ ∀ r ∈ l, ∃ x ∈ ans, Spec.Holds x r.lo.getIpv6

theorem says_addrinfoLoop {t q : Str} {d : Bool} {all : List AddrInfo} (ha : Answer env c inp t q (.list all)) (host : Str)
    (l : List AddrInfo) (hl : ∀ x ∈ l, x ∈ all) (first : Bool) (result : List Range)
    (hr : ∀ r ∈ result, ∃ x ∈ all, Spec.Holds x r.lo.getIpv6) :
    Says c (Complaint env c inp) (addrinfoLoop host d l first result) (fun l => ∀ r ∈ l, ∃ x ∈ all, Spec.Holds x r.lo.getIpv6) := by
  induction l generalizing first result with
  | nil => exact says_pure hr
  | cons x l ih =>
    have ih := ih fun y hy => hl y (List.mem_cons_of_mem _ hy)
    have hx := hl x (List.mem_cons_self ..)
    have hadd : ∀ r : Range, (∃ y ∈ all, Spec.Holds y r.lo.getIpv6) → ∀ s ∈ result ++ [r], ∃ y ∈ all, Spec.Holds y s.lo.getIpv6 := by
      intro r h s hs
      rcases List.mem_append.1 hs with hs | hs
      · exact hr s hs
      · rw [List.mem_singleton] at hs
        rw [hs]
        exact h
    cases x with
    | inet len protocol sa =>
      rw [addrinfoLoop]
      split
      · rename_i hlen
        refine says_bind (says_emit ?_) fun _ _ => ih _ _ hr
        rw [decStr_dec, List.append_assoc, List.append_assoc]
        have := Complaint.size4 ha hx hlen
        rwa [List.append_assoc] at this
      · refine says_bind (R := fun r => ∃ y ∈ all, Spec.Holds y r.lo.getIpv6) (says_lift fun r h => ?_) fun r h => ih _ _ (hadd r h)
        obtain ⟨_, _, _, _, a', h1, h2, _⟩ := makeRange_ok h
        refine ⟨_, hx, ?_⟩
        rw [Addr.getIpv6, h2, ofIn_address h1]
        rfl
    | inet6 len protocol sa =>
      rw [addrinfoLoop]
      split
      · rename_i hlen
        refine says_bind (says_emit ?_) fun _ _ => ih _ _ hr
        rw [decStr_dec, List.append_assoc, List.append_assoc]
        have := Complaint.size6 ha hx hlen
        rwa [List.append_assoc] at this
      · refine says_bind (R := fun r => ∃ y ∈ all, Spec.Holds y r.lo.getIpv6) (says_lift fun r h => ?_) fun r h => ih _ _ (hadd r h)
        obtain ⟨_, _, _, _, a', h1, h2, _⟩ := makeRange_ok h
        refine ⟨_, hx, ?_⟩
        rw [Addr.getIpv6, h2, ofIn6_address h1]
        rfl
    | other family =>
      rw [addrinfoLoop]
      split
      · refine says_bind (says_emit ?_) fun _ _ => ih _ _ hr
        rw [intStr_signed_text]
        exact .family ha hx
      · exact ih _ _ hr

theorem says_numericAddress {t : Str} {d : Bool} (port : Int) (ht : AddressText c inp t) (hf : c.flags .addressLookup = false) :
    Says c (Complaint env c inp) (numericAddress t port d []) (FromOne env c inp) := by
  rw [numericAddress]
  refine says_config ?_
  dsimp only
  cases h4 : Inet.pton4 (cstr t) with
  | some b4 => exact says_bind (R := fun _ => True) (says_lift fun _ _ => trivial) fun r _ => says_pure (.inl (Nat.le_refl 1))
  | none =>
    dsimp only
    cases h6 : Inet.pton6 (cstr t) with
    | some b6 => exact says_bind (R := fun _ => True) (says_lift fun _ _ => trivial) fun r _ => says_pure (.inl (Nat.le_refl 1))
    | none =>
      refine says_return (.unknownAddress hf ht ?_) (.inl (Nat.zero_le 1))
      rintro ⟨b, ⟨b4, h, _⟩ | ⟨_, h⟩⟩
      · rw [h4] at h; cases h
      · rw [h6] at h; cases h

theorem says_parseAddressPort {address port : Str} (v6 : Bool) (hi : address <:+: inp) (hq : port ≠ [] → ':' :: port <:+: inp) :
    Says c (Complaint env c inp) (parseAddressPort env address port [] v6) (FromOne env c inp) := by
  have h0 : FromOne env c inp [] := .inl (Nat.zero_le 1)
  rw [parseAddressPort]
  refine says_config ?_
  dsimp only
  split
  · rename_i h
    rw [Bool.and_eq_true] at h
    exact says_return (.noPort h.2) h0
  rename_i hport
  split
  · rename_i h
    rw [Bool.and_eq_true] at h
    exact says_return (.noAddress h.2) h0
  rename_i haddr
  have hg : AddressText c inp (if address = [] then
          if v6 = true then (if c.defaultAddress6 = [] then "::".toList else c.defaultAddress6)
          else (if c.defaultAddress4 = [] then "0.0.0.0".toList else c.defaultAddress4)
        else address) := by
    by_cases h : address = []
    · rw [if_pos h]
      refine .inr ⟨?_, ?_⟩
      · cases hr : c.flags .requiredAddress with
        | true => rw [hr, h] at haddr; exact absurd rfl haddr
        | false => rfl
      · cases v6
        · exact .inl (if_neg Bool.false_ne_true)
        · exact .inr (if_pos rfl)
    · rw [if_neg h]
      exact .inl ⟨h, hi⟩
  have hpt : PortText c inp (if (!decide (port ≠ []) && decide (c.defaultPort ≠ -1)) = true then intStr c.defaultPort else port)
      (decide (port ≠ [])) := by
    by_cases h : port = []
    · rw [h] at hport ⊢
      refine .inr ⟨rfl, ?_, ?_⟩
      · cases hr : c.flags .requiredPort with
        | true => rw [hr] at hport; exact absurd rfl hport
        | false => rfl
      · by_cases hd : c.defaultPort = -1
        · rw [if_pos hd, if_neg]
          rw [hd]; decide
        · rw [if_neg hd, if_pos]
          rw [Bool.and_eq_true]
          exact ⟨rfl, decide_eq_true hd⟩
    · refine .inl ⟨decide_eq_true h, ?_⟩
      rw [if_neg]
      · exact ⟨h, hq h⟩
      · rw [decide_eq_true h]; exact Bool.false_ne_true
  have hreq : c.flags .requiredPort = true → port ≠ [] := by
    intro h hp
    rw [h, hp] at hport
    exact hport rfl
  have hne : port ≠ [] → (if (!decide (port ≠ []) && decide (c.defaultPort ≠ -1)) = true then intStr c.defaultPort else port) ≠ [] := by
    intro h
    rw [if_neg]
    · exact h
    · rw [decide_eq_true h]; exact Bool.false_ne_true
  revert hg hpt hne
  generalize (if address = [] then
          if v6 = true then (if c.defaultAddress6 = [] then "::".toList else c.defaultAddress6)
          else (if c.defaultAddress4 = [] then "0.0.0.0".toList else c.defaultAddress4)
        else address) = t
  generalize (if (!decide (port ≠ []) && decide (c.defaultPort ≠ -1)) = true then intStr c.defaultPort else port) = q
  intro hg hpt hne
  cases hf : c.flags .addressLookup with
  | true =>
    rw [if_pos rfl, lookupAddress]
    refine says_config ?_
    split
    · rename_i r e hl
      have ha : Answer env c inp t q (.error r e) := ⟨hf, hg, ⟨_, hpt⟩, hl⟩
      refine says_return ?_ h0
      rw [intStr_signed_text, intStr_signed_text]
      exact .invalidAddress ha
    · rename_i l hl
      have ha : Answer env c inp t q (.list l) := ⟨hf, hg, ⟨_, hpt⟩, hl⟩
      exact says_mono (says_addrinfoLoop ha t l (fun _ h => h) _ _ (by simp)) fun l' h => .inr ⟨t, q, l, ha, h⟩
  | false =>
    rw [if_neg Bool.false_ne_true, noLookupAddress]
    refine says_getAllow (says_getAllow ?_)
    split
    · rename_i hrq
      have hq0 : q ≠ [] := by
        rw [Bool.or_eq_true] at hrq
        rcases hrq with h | h
        · exact hne (hreq h)
        · exact of_decide_eq_true h
      split
      · rename_i hn
        refine says_return (.badPort hf hpt hq0 ?_) h0
        rintro ⟨n, h, _⟩
        rw [hn] at h
        cases h
      · rename_i n hn
        split
        · rename_i hrange
          refine says_return (.badPort hf hpt hq0 ?_) h0
          rintro ⟨m, h, h'⟩
          rw [hn] at h
          cases h
          omega
        · rename_i hrange
          split
          · rename_i hallow
            rw [Bool.and_eq_true, Bool.not_eq_true', Bool.not_eq_true'] at hallow
            exact says_return (.portFound (n := n.toNat) hf hallow.1 hallow.2 hpt hq0 (by rw [hn]; congr 1; omega) (by omega)) h0
          · exact says_numericAddress n hg hf
    · exact says_numericAddress 0 hg hf

theorem memcmp_self : ∀ l : List Byte, Addr.memcmp l l = 0
  | [] => rfl
  | x :: l => by rw [Addr.memcmp, if_pos rfl]; exact memcmp_self l

theorem setProtocol_address {n : Int} {a b : Addr} (h : onLocal (Addr.setProtocol n) a = .ok b) : b.address = a.address := by
  simp only [onLocal, Addr.setProtocol] at h
  split at h
  · rename_i a' ha'
    cases h
    revert ha'
    repeat' split
    all_goals intro ha'; simp at ha'
    all_goals rw [← ha']
    rfl
  · cases h
  · cases h

/-- What is kept of the addresses of a bound after the first one starts with a different one. -/
theorem dropDuplicates_first {a : Addr} {l l' : List Range} (h : dropDuplicates a l = .ok l') (hne : l' ≠ []) :
    ∃ r ∈ l, r.lo.address.addr ≠ a.address.addr := by
  induction l with
  | nil => rw [dropDuplicates] at h; cases h; exact absurd rfl hne
  | cons x l ih =>
    rw [dropDuplicates] at h
    cases h1 : onLocal (Addr.setProtocol a.protocol) x.lo with
    | throw e => rw [h1] at h; cases h
    | ub w => rw [h1] at h; cases h
    | ok n =>
      rw [h1] at h
      simp only [Res.bind_ok] at h
      split at h
      · rename_i hn
        refine ⟨x, List.mem_cons_self .., fun he => ?_⟩
        have : n.bytes = a.bytes := by rw [Addr.bytes, Addr.bytes, setProtocol_address h1]; exact he
        rw [Addr.ne, Addr.cmp, this, memcmp_self] at hn
        cases hn
      · obtain ⟨r, hr, h2⟩ := ih h
        exact ⟨r, List.mem_cons_of_mem _ hr, h2⟩

theorem says_parseBound {which address port : Str} (v6 : Bool) (hw : which = "from".toList ∨ which = "to".toList)
    (hr : c.flags .addressRange = true) (hm : "-".toList <:+: inp) (hi : address <:+: inp)
    (hq : port ≠ [] → ':' :: port <:+: inp) :
    Says c (Complaint env c inp) (parseBound env which address port v6) fun _ => True := by
  rw [parseBound]
  refine says_bind (R := fun l => l.length ≤ 1 ∨ ∃ t q ans x y sx sy, Answer env c inp t q (.list ans) ∧ x ∈ ans ∧ y ∈ ans
    ∧ Spec.Holds x sx ∧ Spec.Holds y sy ∧ sx.addr ≠ sy.addr) ?_ ?_
  · rw [ignoreDuplicates]
    refine says_bind (says_parseAddressPort v6 hi hq) fun l hl => ?_
    cases l with
    | nil => exact says_pure (.inl (Nat.zero_le 1))
    | cons r l =>
      refine says_bind (R := fun l' => dropDuplicates r.lo l = .ok l') (says_lift fun _ h => h) fun l' h' => says_pure ?_
      cases l' with
      | nil => exact .inl (Nat.le_refl 1)
      | cons s l' =>
        obtain ⟨u, hu, hne⟩ := dropDuplicates_first h' (List.cons_ne_nil _ _)
        rcases hl with hl | ⟨t, q, ans, ha, hl⟩
        · cases l with
          | nil => cases hu
          | cons y l => simp at hl
        · obtain ⟨x, hx, hx'⟩ := hl u (List.mem_cons_of_mem _ hu)
          obtain ⟨y, hy, hy'⟩ := hl r (List.mem_cons_self ..)
          exact .inr ⟨t, q, ans, x, y, _, _, ha, hx, hy, hx', hy', hne⟩
  · intro l hl
    match l, hl with
    | [], _ => exact says_pure trivial
    | [r], _ => exact says_pure trivial
    | _ :: _ :: l, hl =>
      rcases hl with hl | ⟨t, q, ans, x, y, sx, sy, ha, hx, hy, hx', hy', hne⟩
      · simp at hl
      · exact says_return (.manyBounds hw hr hm ha hx hy hx' hy' hne) trivial

theorem says_parseAddressRangePort {addresses port : Str} (v6 : Bool) (hi : addresses <:+: inp)
    (hq : port ≠ [] → ':' :: port <:+: inp) :
    Says c (Complaint env c inp) (parseAddressRangePort env addresses port [] v6) fun _ => True := by
  rw [parseAddressRangePort]
  refine says_config ?_
  cases hs : (if c.flags .addressRange then splitFirst '-' addresses else none) with
  | none => exact says_any (says_parseAddressPort v6 hi hq)
  | some x =>
    obtain ⟨frm, til⟩ := x
    have hf : c.flags .addressRange = true := by
      cases h : c.flags .addressRange with
      | true => rfl
      | false => rw [h, if_neg Bool.false_ne_true] at hs; cases hs
    rw [if_pos hf] at hs
    have hx := splitFirst_infix hs
    have hx1 := hx.1.trans hi
    have hx2 := hx.2.trans hi
    have hm : "-".toList <:+: inp := by
      refine List.IsInfix.trans ⟨frm, til, ?_⟩ hi
      rw [(splitFirst_some hs).1, List.append_assoc]
      rfl
    cases frm with
    | nil =>
      cases til with
      | nil => exact says_return (.noBounds hf hm) trivial
      | cons y til =>
        refine says_bind (says_parseBound v6 (.inr rfl) hf hm hx2 hq) fun o _ => ?_
        cases o <;> exact says_pure trivial
    | cons y frm =>
      cases til with
      | nil =>
        refine says_bind (says_parseBound v6 (.inl rfl) hf hm hx1 hq) fun o _ => ?_
        cases o <;> exact says_pure trivial
      | cons z til =>
        refine says_bind (says_parseBound v6 (.inl rfl) hf hm hx1 hq) fun o _ => ?_
        cases o with
        | none => exact says_pure trivial
        | some r =>
          refine says_bind (says_parseBound v6 (.inr rfl) hf hm hx2 hq) fun o _ => ?_
          cases o with
          | none => exact says_pure trivial
          | some t =>
            dsimp only
            split <;> exact says_pure trivial

theorem no_ports {a b : Bool} (h : ¬ (a || b) = true) : a = false ∧ b = false := by
  cases a <;> cases b <;> simp at h ⊢

theorem says_parseAddress4 {s : Str} (hi : s <:+: inp) : Says c (Complaint env c inp) (parseAddress4 env s []) fun _ => True := by
  rw [parseAddress4]
  refine says_config ?_
  cases hs : splitFirst ':' s with
  | none => exact says_parseAddressRangePort _ hi (fun h => absurd rfl h)
  | some x =>
    dsimp only
    split
    · exact says_parseAddressRangePort _ ((splitFirst_infix hs).1.trans hi) fun _ => (splitFirst_port hs).trans hi
    · rename_i h
      refine says_return (.portNotAllowed (no_ports h).1 (no_ports h).2 hi ?_) trivial
      rw [(splitFirst_some hs).1]
      simp

theorem says_parseAddress6 {s : Str} (n : Nat) (hi : s <:+: inp) :
    Says c (Complaint env c inp) (parseAddress6 env s n []) fun _ => True := by
  rw [parseAddress6]
  refine says_config ?_
  split
  · rename_i hh
    obtain ⟨s', rfl⟩ : ∃ s', s = '[' :: s' := by
      cases s with
      | nil => cases hh
      | cons x s => cases hh; exact ⟨s, rfl⟩
    have hd : s' <:+: inp := List.IsInfix.trans ⟨['['], [], by simp⟩ hi
    rw [List.drop_one, List.tail_cons]
    cases hs : splitFirst ']' s' with
    | none =>
      refine says_return ?_ trivial
      have := Complaint.noBracket (env := env) (c := c) hi (splitFirst_none.1 hs)
      rwa [List.append_assoc "IPv6 is missing the ']' (".toList] at this
    | some x =>
      obtain ⟨a, b⟩ := x
      have ha := (splitFirst_infix hs).1.trans hd
      have he := (splitFirst_some hs).1
      cases b with
      | nil => exact says_parseAddressRangePort _ ha (fun h => absurd rfl h)
      | cons y b =>
        have he' : "[".toList ++ a ++ "]".toList ++ y :: b = '[' :: s' := by
          rw [he]
          simp
        dsimp only
        split
        · rename_i hy
          refine says_return ?_ trivial
          rw [← he']
          rw [← he'] at hi
          exact .afterBracket hi hy
        · rename_i hy
          have hy := Decidable.not_not.1 hy
          split
          · rename_i hallow
            rw [Bool.and_eq_true, Bool.not_eq_true', Bool.not_eq_true'] at hallow
            refine says_return (.portNotAllowed hallow.1 hallow.2 hi ?_) trivial
            rw [he, hy]
            simp
          · refine says_parseAddressRangePort _ ha fun _ => ?_
            rw [← hy]
            exact (splitFirst_infix hs).2.trans hd
  · split
    · cases hs : splitFirst ':' s with
      | none => exact says_throw _ _
      | some x =>
        exact says_parseAddressRangePort _ ((splitFirst_infix hs).1.trans hi) fun _ => (splitFirst_port hs).trans hi
    · exact says_parseAddressRangePort _ hi (fun h => absurd rfl h)

theorem says_parseAddress {s : Str} (mask : Str) (hi : s <:+: inp) :
    Says c (Complaint env c inp) (parseAddress env s mask []) fun _ => True := by
  have h4 : Says c (Complaint env c inp) (parseAddress4 env s [] >>= fun l => (Pure.pure (true, l) : PM (Bool × List Range)))
      (fun _ => True) := says_bind (says_parseAddress4 hi) fun l _ => says_pure trivial
  have h6 : Says c (Complaint env c inp) (parseAddress6 env s (s.count ':') [] >>= fun l => (Pure.pure (false, l) : PM (Bool × List Range)))
        (fun _ => True) := says_bind (says_parseAddress6 _ hi) fun l _ => says_pure trivial
  rw [parseAddress]
  refine says_config ?_
  dsimp only
  repeat' (first | exact h4 | exact h6 | split)

theorem scanDigits_tooLarge {limit : Nat} : ∀ {t : Str} {acc : Nat}, scanDigits limit t acc = .tooLarge →
    ∃ ds, ds <+: t ∧ (∀ x ∈ ds, x.isDigit = true) ∧ limit < Nat.ofDigitChars 10 ds acc
  | [], _, h => by cases h
  | x :: t, acc, h => by
    rw [scanDigits] at h
    cases hx : x.isDigit with
    | false => rw [decVal_not hx] at h; cases h
    | true =>
      rw [decVal_isDigit x hx] at h
      dsimp only at h
      split at h
      · rename_i hgt
        refine ⟨[x], ⟨t, rfl⟩, by simpa using hx, ?_⟩
        rw [Nat.ofDigitChars_cons, Nat.ofDigitChars_nil, Nat.mul_comm 10 acc]
        exact hgt
      · obtain ⟨ds, ⟨u, h1⟩, h2, h3⟩ := scanDigits_tooLarge h
        refine ⟨x :: ds, ⟨u, by rw [List.cons_append, h1]⟩, ?_, ?_⟩
        · intro y hy
          rcases List.mem_cons.1 hy with rfl | hy
          · exact hx
          · exact h2 y hy
        · rw [Nat.ofDigitChars_cons, Nat.mul_comm 10 acc]
          exact h3

theorem scanDigits_value {limit : Nat} {t : Str} {n : Nat} (h : scanDigits limit t 0 = .number n) : Nat.ofDigitChars 10 t 0 = n := by
  have hd := scanDigits_number h
  rw [scanDigits_digits limit t hd 0 (Nat.zero_le _)] at h
  split at h
  · cases h
  · exact Digits.number.inj h

theorem unbracket {m : Str} (h1 : m.head? = some '[') (h2 : m.getLast? = some ']') :
    m = "[".toList ++ (m.drop 1).dropLast ++ "]".toList := by
  cases m with
  | nil => cases h1
  | cons x s =>
    cases h1
    cases s with
    | nil => simp at h2
    | cons y s =>
      rw [List.getLast?_cons_cons] at h2
      obtain ⟨u, h3⟩ := List.getLast?_eq_some_iff.1 h2
      rw [List.drop_one, List.tail_cons, h3, List.dropLast_concat]
      rfl

theorem says_addressMask {mask : Str} (a : Addr) (v4 : Bool) (hm : MaskText c inp mask) (hn : scanDigits 10000 (cstr mask) 0 = .notNumber) :
    Says c (Complaint env c inp) (addressMask env mask a v4) fun _ => True := by
  rw [addressMask]
  refine says_config ?_
  split
  · rename_i hf
    rw [Bool.not_eq_true'] at hf
    refine says_return (.maskNotNumber hf hm fun h => ?_) trivial
    rw [scanDigits_digits _ _ h.2 0 (Nat.zero_le _)] at hn
    split at hn <;> cases hn
  rename_i hf
  have hf : c.flags .addressMask = true := by
    cases h : c.flags .addressMask with
    | true => rfl
    | false => rw [h] at hf; exact absurd rfl hf
  split
  · rename_i h
    rw [Bool.and_eq_true, decide_eq_true_eq] at h
    exact says_return (.maskSix hf hm h.2) trivial
  rename_i n1
  split
  · rename_i h
    rw [Bool.and_eq_true, decide_eq_true_eq] at h
    exact says_return (.maskFour hf hm h.2) trivial
  rename_i n2
  split
  · rename_i h
    rw [Bool.and_eq_true, decide_eq_true_eq, Bool.not_eq_true'] at h
    refine says_return (.maskBracket hf hm ?_ h.2) trivial
    rw [h.1] at n2
    exact Decidable.not_not.1 fun h' => n2 (by rw [decide_eq_true h']; rfl)
  rename_i n3
  have hans : ∀ ans service protocol, env.getaddrinfo (cstr (if v4 = true then mask else (mask.drop 1).dropLast)) service true protocol = ans →
      MaskAnswer env c inp mask (!v4) ans := by
    intro ans service protocol h
    refine ⟨hf, hm, _, service, protocol, ?_, h⟩
    cases v4 with
    | true =>
      rw [if_neg (by decide), if_pos rfl]
      exact ⟨rfl, fun h' => n1 (by rw [decide_eq_true h']; rfl)⟩
    | false =>
      rw [if_pos (by decide), if_neg Bool.false_ne_true]
      refine unbracket (Decidable.not_not.1 fun h' => n2 (by rw [decide_eq_true h']; rfl))
        (Decidable.not_not.1 fun h' => n3 (by rw [decide_eq_true h']; rfl))
  dsimp only
  generalize (if v4 = true then mask else (mask.drop 1).dropLast) = m at hans ⊢
  split
  · exact says_pure trivial
  split
  · rename_i r e h
    refine says_return ?_ trivial
    rw [intStr_signed_text, intStr_signed_text]
    exact .maskInvalid (hans _ _ _ h)
  · exact says_lift fun _ _ => trivial
  · rename_i len pr sa l h
    have h := hans _ _ _ h
    split
    · rename_i h4
      rw [h4] at h
      exact says_return (.maskNotSix h fun _ _ _ => nofun) trivial
    · rename_i h4
      have h4 : (!v4) = false := by simpa using h4
      rw [h4] at h
      split
      · rename_i hlen
        refine says_return ?_ trivial
        rw [decStr_dec, List.append_assoc, List.append_assoc]
        have := Complaint.maskAnswer4 h hlen
        rwa [List.append_assoc] at this
      · exact says_pure trivial
  · rename_i len pr sa l h
    have h := hans _ _ _ h
    split
    · rename_i h4
      rw [h4] at h
      exact says_return (.maskNotFour h fun _ _ _ => nofun) trivial
    · rename_i h4
      have h4 : (!v4) = true := by simpa using h4
      rw [h4] at h
      split
      · rename_i hlen
        refine says_return ?_ trivial
        rw [decStr_dec, List.append_assoc, List.append_assoc]
        have := Complaint.maskAnswer6 h hlen
        rwa [List.append_assoc] at this
      · exact says_pure trivial
  · rename_i f l h
    have h := hans _ _ _ h
    refine says_return ?_ trivial
    split
    · rename_i h4
      rw [h4] at h
      exact .maskNotFour h fun _ _ _ => nofun
    · rename_i h4
      have h4 : (!v4) = true := by simpa using h4
      rw [h4] at h
      exact .maskNotSix h fun _ _ _ => nofun

theorem says_parseMask {mask : Str} (a : Addr) (v4 : Bool) (hm : mask ≠ [] → MaskText c inp mask) :
    Says c (Complaint env c inp) (parseMask env mask a v4) fun _ => True := by
  rw [parseMask]
  split
  · exact says_pure trivial
  · rename_i h0
    have hm := hm h0
    split
    · rename_i h
      obtain ⟨ds, h1, h2, h3⟩ := scanDigits_tooLarge h
      exact says_return (.maskTooLarge hm ⟨h1, h2⟩ h3) trivial
    · rename_i n h
      have hv := scanDigits_value h
      have hd : MaskDigits mask (cstr mask) := ⟨List.prefix_refl _, scanDigits_number h⟩
      split
      · rename_i h'
        rw [Bool.and_eq_true, decide_eq_true_eq] at h'
        refine says_return ?_ trivial
        rw [← hv, decStr_dec]
        exact .maskSize4 hm hd (by rw [hv]; exact h'.2)
      · split
        · rename_i h'
          rw [Bool.and_eq_true, decide_eq_true_eq] at h'
          refine says_return ?_ trivial
          rw [← hv, decStr_dec]
          exact .maskSize6 hm hd (by rw [hv]; exact h'.2)
        · exact says_bind (R := fun _ => True) (says_lift fun _ _ => trivial) fun _ _ => says_lift fun _ _ => trivial
    · rename_i h
      refine says_bind (says_addressMask a v4 hm h) fun o _ => ?_
      cases o with
      | none => exact says_pure trivial
      | some bits => exact says_lift fun _ _ => trivial

theorem says_maskLoop {mask : Str} (v4 : Bool) (l : List Range) (hf : c.flags .mask = true) (hm : mask ≠ [] → '/' :: mask <:+: inp) :
    Says c (Complaint env c inp) (maskLoop env mask v4 l) fun _ => True := by
  induction l with
  | nil => exact says_pure trivial
  | cons x l ih =>
    rw [maskLoop]
    refine says_config (says_bind (says_parseMask _ _ ?_) fun a _ => says_bind ih fun _ _ => says_pure trivial)
    intro h0
    refine ⟨hf, h0, ?_⟩
    rw [chooseMask] at h0 ⊢
    split
    · rename_i h
      exact .inl (hm h)
    · rename_i h
      rw [if_neg h] at h0
      split
      · exact .inr (.inl rfl)
      · rename_i h'
        rw [if_neg h'] at h0
        split
        · exact .inr (.inr rfl)
        · rename_i h''
          rw [if_neg h''] at h0
          exact absurd rfl h0

theorem says_parseCidr {s : Str} (hi : s <:+: inp) : Says c (Complaint env c inp) (parseCidr env s []) fun _ => True := by
  have ht := (trimString_infix s).trans hi
  rw [parseCidr]
  refine says_config ?_
  dsimp only
  split
  · rename_i hf
    have ha : ((splitFirst '/' (trimString s)).getD (trimString s, [])).1 <:+: inp
        ∧ (((splitFirst '/' (trimString s)).getD (trimString s, [])).2 ≠ [] →
          '/' :: ((splitFirst '/' (trimString s)).getD (trimString s, [])).2 <:+: inp) := by
      cases hs : splitFirst '/' (trimString s) with
      | none => exact ⟨ht, fun h => absurd rfl h⟩
      | some x => exact ⟨(splitFirst_infix hs).1.trans ht, fun _ => (splitFirst_port hs).trans ht⟩
    refine says_errorCountNow fun n => ?_
    refine says_bind (says_parseAddress _ ha.1) fun x _ => ?_
    refine says_bind (says_maskLoop _ _ hf ha.2) fun l _ => ?_
    refine says_errorCountNow fun m => ?_
    split <;> exact says_pure trivial
  · exact says_bind (says_parseAddress _ ht) fun x _ => says_pure trivial

theorem says_seqEntries (es : List Str) (hi : ∀ e ∈ es, e <:+: inp) :
    Says c (Complaint env c inp) (seqEntries env es) fun _ => True := by
  induction es with
  | nil => exact says_pure trivial
  | cons e es ih =>
    rw [seqEntries]
    refine says_bind (says_parseCidr (hi e (List.mem_cons_self ..))) fun l _ => ?_
    exact says_bind (ih fun x hx => hi x (List.mem_cons_of_mem _ hx)) fun l' _ => says_pure trivial

theorem says_parseUnsorted (inp : Str) : Says c (Complaint env c inp) (parseUnsorted env inp) fun _ => True := by
  rw [parseUnsorted]
  refine says_config ?_
  split
  · rw [parseSingle]
    refine says_config ?_
    dsimp only
    split
    · refine says_bind (R := fun e => e <:+: inp) (says_lift fun e he => ?_) fun e he => says_parseCidr he
      rw [substr] at he
      split at he
      · cases he
      · cases he
        exact (List.take_prefix _ _).isInfix.trans (List.drop_suffix _ _).isInfix
    · exact says_parseCidr (List.infix_refl _)
  · intro p hp
    rw [parseList_eq, hp]
    refine (says_bind (says_seqEntries _ fun e he => ?_) fun _ _ => says_pure trivial) p hp
    exact (entriesOf_mem c _ _ e he).2.2.2

theorem says_parse (inp : Str) : Says c (Complaint env c inp) (parse env inp) fun _ => True := by
  rw [parse]
  exact says_config (says_bind (says_parseUnsorted inp) fun _ _ => says_lift fun _ _ => trivial)

end

end Verif.Parser
