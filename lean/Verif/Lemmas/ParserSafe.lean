import Verif.SpecParseSafe
import Verif.Lemmas.Parser
import Verif.Lemmas.ParserList

/-!
# Lemmas: the parser answers
-/

namespace Verif.Parser

open Spec

/-- The function returns a value which has the property, and keeps the configuration. -/
def Safe {α : Type} (c : Config) (m : PM α) (Q : α → Prop) : Prop :=
  ∀ p : Parser, p.config = c → ∃ p' a, m p = (p', .ok a) ∧ p'.config = c ∧ Q a

section
variable {env : ParseEnv} {c : Config}

theorem safe_pure {α : Type} {a : α} {Q : α → Prop} (h : Q a) : Safe c (Pure.pure a : PM α) Q := fun _ hp => ⟨_, a, rfl, hp, h⟩

theorem safe_value {α : Type} {m : PM α} {Q : α → Prop} (h : Safe c m Q) (p : Parser) (hp : p.config = c) :
    ∃ a, (m p).2 = .ok a ∧ Q a := by
  obtain ⟨p', a, h, _, hq⟩ := h p hp
  exact ⟨a, by rw [h], hq⟩

theorem safe_lift {α : Type} {r : Res α} {Q : α → Prop} (h : ∃ a, r = .ok a ∧ Q a) : Safe c (PM.lift r) Q := by
  obtain ⟨a, hr, hq⟩ := h
  exact fun p hp => ⟨p, a, by rw [PM.lift, hr], hp, hq⟩

theorem safe_emit (msg : Str) : Safe c (emitError msg) fun _ => True := fun _ hp => ⟨_, (), rfl, hp, trivial⟩

theorem safe_config : Safe c PM.config fun c' => c' = c := fun _ hp => ⟨_, _, rfl, hp, hp⟩

theorem safe_getAllow (x : Allow) : Safe c (getAllow x) fun b => b = c.flags x := fun p hp => ⟨p, _, rfl, hp, by rw [hp]⟩

theorem safe_errorCountNow : Safe c errorCountNow fun _ => True := fun p hp => ⟨p, _, rfl, hp, trivial⟩

theorem safe_bind {α β : Type} {m : PM α} {f : α → PM β} {R : α → Prop} {Q : β → Prop} (h1 : Safe c m R)
    (h2 : ∀ a, R a → Safe c (f a) Q) : Safe c (m >>= f) Q := by
  intro p hp
  obtain ⟨p', a, h, hc, hr⟩ := h1 p hp
  obtain ⟨p'', b, h', hc', hq⟩ := h2 a hr p' hc
  exact ⟨p'', b, by rw [PM.bind_of_ok h, h'], hc', hq⟩

theorem safe_mono {α : Type} {m : PM α} {Q R : α → Prop} (h : Safe c m Q) (hqr : ∀ a, Q a → R a) : Safe c m R := by
  intro p hp
  obtain ⟨p', a, h, hc, hr⟩ := h p hp
  exact ⟨p', a, h, hc, hqr a hr⟩

/-- The protocols which `set_protocol()` accepts. -/
def Settable (n : Int) : Prop := n = IPPROTO_IP ∨ n = IPPROTO_TCP ∨ n = IPPROTO_UDP

/-- The start of every range has a protocol which can be set. -/
def Fine (l : List Range) : Prop := ∀ r ∈ l, Settable r.lo.protocol

theorem fine_nil : Fine [] := fun _ h => nomatch h

theorem fine_append {l l' : List Range} (h : Fine l) (h' : Fine l') : Fine (l ++ l') := by
  intro r hr
  rcases List.mem_append.1 hr with hr | hr
  · exact h r hr
  · exact h' r hr

theorem fine_single {r : Range} (h : Settable r.lo.protocol) : Fine [r] := by
  intro s hs
  rw [List.mem_singleton.1 hs]
  exact h

theorem safe_emit_then {l : List Range} (hl : Fine l) (msg : Str) :
    Safe c (emitError msg >>= fun _ => (Pure.pure l : PM (List Range))) Fine :=
  safe_bind (safe_emit msg) fun _ _ => safe_pure hl

theorem settable_of_known {n : Int} (h : KnownProtocol n) (h1 : n ≠ -1) : Settable n := by
  rcases h with h | h | h | h
  · exact absurd h h1
  · exact .inl h
  · exact .inr (.inl h)
  · exact .inr (.inr h)

theorem onLocal_setProtocol {n : Int} (h : Settable n) (a : Addr) :
    ∃ b, onLocal (Addr.setProtocol n) a = .ok b ∧ b.protocol = n := by
  by_cases e : n = a.protocol
  · exact ⟨a, by rw [onLocal, Addr.setProtocol, if_pos (show n = IPPROTO_IP ∨ _ from h), if_neg (fun h => h e)], e.symm⟩
  · exact ⟨Addr.addressChanged { a with protocolDefined := true, protocol := n },
      by rw [onLocal, Addr.setProtocol, if_pos (show n = IPPROTO_IP ∨ _ from h), if_pos e], rfl⟩

theorem makeRange_safe {a : Addr} {hostname : Str} {protocol : Int} {d : Bool} (ha : Settable a.protocol)
    (hp : KnownProtocol protocol) : ∃ r, makeRange (.ok a) hostname protocol d = .ok r ∧ Settable r.lo.protocol := by
  by_cases e : protocol = -1
  · refine ⟨Range.default.setFrom { a with hostname := hostname, portDefined := d }, ?_, (show Settable a.protocol from ha)⟩
    simp only [makeRange, onLocal, Addr.setHostname, Addr.setPortDefined, Res.bind_ok, if_neg (fun h : protocol ≠ -1 => h e)]
    rfl
  · obtain ⟨b, hb, hbp⟩ := onLocal_setProtocol (settable_of_known hp e) { a with hostname := hostname }
    refine ⟨Range.default.setFrom { b with portDefined := d }, ?_, ?_⟩
    · simp only [makeRange, onLocal, Addr.setHostname, Addr.setPortDefined, Res.bind_ok, if_pos e] at hb ⊢
      rw [hb]
      rfl
    · show Settable b.protocol
      rw [hbp]
      exact settable_of_known hp e

theorem ofIn_safe {sa : SockaddrIn} (h : sa.family = AF_INET) : ∃ a, Addr.ofIn sa = .ok a ∧ Settable a.protocol := by
  rw [Addr.ofIn, Addr.setIpv4, if_neg (fun h' => h' h)]
  exact ⟨_, rfl, .inr (.inl rfl)⟩

theorem ofIn6_safe {sa : SockaddrIn6} (h : sa.family = AF_INET6) : ∃ a, Addr.ofIn6 sa = .ok a ∧ Settable a.protocol := by
  rw [Addr.ofIn6, Addr.setIpv6, if_neg (fun h' => h' h)]
  exact ⟨_, rfl, .inr (.inl rfl)⟩

theorem safe_addrinfoLoop (hostname : Str) (d : Bool) (l : List AddrInfo) (hl : ∀ x ∈ l, SafeAnswer x) (first : Bool)
    (result : List Range) (hr : Fine result) : Safe c (addrinfoLoop hostname d l first result) Fine := by
  induction l generalizing first result with
  | nil => exact safe_pure hr
  | cons x l ih =>
    have ih' := ih (fun y hy => hl y (List.mem_cons_of_mem _ hy))
    have hx := hl x List.mem_cons_self
    cases x with
    | inet len protocol sa =>
      rw [addrinfoLoop]
      split
      · exact safe_bind (safe_emit _) fun _ _ => ih' _ _ hr
      · rename_i hlen
        obtain ⟨hf, hp⟩ := hx (Decidable.not_not.1 hlen)
        obtain ⟨a, ha, has⟩ := ofIn_safe hf
        rw [ha]
        exact safe_bind (safe_lift (makeRange_safe has hp)) fun r h => ih' _ _ (fine_append hr (fine_single h))
    | inet6 len protocol sa =>
      rw [addrinfoLoop]
      split
      · exact safe_bind (safe_emit _) fun _ _ => ih' _ _ hr
      · rename_i hlen
        obtain ⟨hf, hp⟩ := hx (Decidable.not_not.1 hlen)
        obtain ⟨a, ha, has⟩ := ofIn6_safe hf
        rw [ha]
        exact safe_bind (safe_lift (makeRange_safe has hp)) fun r h => ih' _ _ (fine_append hr (fine_single h))
    | other family =>
      rw [addrinfoLoop]
      split
      · exact safe_bind (safe_emit _) fun _ _ => ih' _ _ hr
      · exact ih' _ _ hr

theorem hint_cases (n : Int) : hintProtocol n = 0 ∨ hintProtocol n = 6 ∨ hintProtocol n = 17 := by
  rw [hintProtocol]
  split
  · rename_i h
    exact .inr h
  · exact .inl rfl

theorem safe_numericAddress (hp : KnownProtocol c.protocol) (address : Str) (port : Int) (d : Bool) (result : List Range)
    (hr : Fine result) : Safe c (numericAddress address port d result) Fine := by
  rw [numericAddress]
  refine safe_bind safe_config fun c' hc => ?_
  rw [hc]
  dsimp only
  split
  · rename_i b _
    obtain ⟨a, ha, has⟩ := ofIn_safe (sa := { family := AF_INET, port := swap16 (BitVec.ofInt 16 port), addr := b, zero := Vector.replicate 8 0 }) rfl
    rw [ha]
    exact safe_bind (safe_lift (makeRange_safe has hp)) fun r h => safe_pure (fine_append hr (fine_single h))
  · split
    · rename_i b _
      obtain ⟨a, ha, has⟩ := ofIn6_safe (sa := { family := AF_INET6, port := swap16 (BitVec.ofInt 16 port), flowinfo := 0, scope := 0, addr := b }) rfl
      rw [ha]
      exact safe_bind (safe_lift (makeRange_safe has hp)) fun r h => safe_pure (fine_append hr (fine_single h))
    · exact safe_emit_then hr _

theorem safe_parseAddressPort (henv : Answerable env c) (address port : Str) (result : List Range) (v6 : Bool) (hr : Fine result) :
    Safe c (parseAddressPort env address port result v6) Fine := by
  rw [parseAddressPort]
  refine safe_bind safe_config fun c' hc => ?_
  rw [hc]
  dsimp only
  split
  · exact safe_emit_then hr _
  split
  · exact safe_emit_then hr _
  generalize (if address = [] then
          if v6 = true then (if c.defaultAddress6 = [] then "::".toList else c.defaultAddress6)
          else (if c.defaultAddress4 = [] then "0.0.0.0".toList else c.defaultAddress4)
        else address) = t
  generalize (if (!decide (port ≠ []) && decide (c.defaultPort ≠ -1)) = true then intStr c.defaultPort else port) = q
  cases hf : c.flags .addressLookup with
  | true =>
    rw [if_pos rfl, lookupAddress]
    refine safe_bind safe_config fun c' hc => ?_
    rw [hc]
    split
    · exact safe_emit_then hr _
    · rename_i l hl
      exact safe_addrinfoLoop _ _ l (henv.lookup hf _ _ _ _ (hint_cases _) hl) _ _ hr
  | false =>
    have hp := henv.protocol hf
    rw [if_neg Bool.false_ne_true, noLookupAddress]
    refine safe_bind (safe_getAllow _) fun _ _ => safe_bind (safe_getAllow _) fun _ _ => ?_
    split
    · split
      · exact safe_emit_then hr _
      · split
        · exact safe_emit_then hr _
        · split
          · exact safe_emit_then hr _
          · exact safe_numericAddress hp _ _ _ _ hr
    · exact safe_numericAddress hp _ _ _ _ hr

theorem dropDuplicates_safe {a : Addr} (ha : Settable a.protocol) (l : List Range) :
    ∃ l', dropDuplicates a l = .ok l' ∧ ∀ r ∈ l', r ∈ l := by
  induction l with
  | nil => exact ⟨[], rfl, fun _ h => h⟩
  | cons r l ih =>
    obtain ⟨b, hb, _⟩ := onLocal_setProtocol ha r.lo
    rw [dropDuplicates, hb, Res.bind_ok]
    split
    · exact ⟨_, rfl, fun _ h => h⟩
    · obtain ⟨l', h, hm⟩ := ih
      exact ⟨l', h, fun s hs => List.mem_cons_of_mem _ (hm s hs)⟩

theorem safe_parseBound (henv : Answerable env c) (which address port : Str) (v6 : Bool) :
    Safe c (parseBound env which address port v6) fun o => ∀ r, o = some r → Settable r.lo.protocol := by
  rw [parseBound]
  refine safe_bind (R := Fine) ?_ fun l hl => ?_
  · rw [ignoreDuplicates]
    refine safe_bind (safe_parseAddressPort henv _ _ _ _ fine_nil) fun l hl => ?_
    split
    · exact safe_pure fine_nil
    · rename_i r l
      refine safe_bind (R := fun l' => ∀ r ∈ l', r ∈ l) (safe_lift (dropDuplicates_safe (hl r List.mem_cons_self) l)) fun l' hl' => ?_
      refine safe_pure fun s hs => ?_
      rcases List.mem_cons.1 hs with h | h
      · exact hl s (by rw [h]; exact List.mem_cons_self)
      · exact hl s (List.mem_cons_of_mem _ (hl' s h))
  · split
    · exact safe_pure fun _ h => nomatch h
    · rename_i r
      refine safe_pure fun s h => ?_
      cases h
      exact hl r List.mem_cons_self
    · exact safe_bind (safe_emit _) fun _ _ => safe_pure fun _ h => nomatch h

theorem safe_emit_any (l : List Range) (msg : Str) :
    Safe c (emitError msg >>= fun _ => (Pure.pure l : PM (List Range))) fun _ => True :=
  safe_bind (safe_emit msg) fun _ _ => safe_pure trivial

theorem safe_parseAddressRangePort (henv : Answerable env c) (addresses port : Str) (v6 : Bool) :
    Safe c (parseAddressRangePort env addresses port [] v6) fun _ => True := by
  rw [parseAddressRangePort]
  refine safe_bind safe_config fun c' hc => ?_
  rw [hc]
  split
  · exact safe_mono (safe_parseAddressPort henv _ _ _ _ fine_nil) fun _ _ => trivial
  · exact safe_emit_any _ _
  · refine safe_bind (safe_parseBound henv _ _ _ _) fun o ho => ?_
    split <;> exact safe_pure trivial
  · refine safe_bind (safe_parseBound henv _ _ _ _) fun o ho => ?_
    split <;> exact safe_pure trivial
  · refine safe_bind (safe_parseBound henv _ _ _ _) fun o ho => ?_
    split
    · exact safe_pure trivial
    · refine safe_bind (safe_parseBound henv _ _ _ _) fun o' ho' => ?_
      split
      · exact safe_pure trivial
      · dsimp only
        split <;> exact safe_pure trivial

theorem safe_parseAddress4 (henv : Answerable env c) (inp : Str) : Safe c (parseAddress4 env inp []) fun _ => True := by
  rw [parseAddress4]
  refine safe_bind safe_config fun c' hc => ?_
  rw [hc]
  split
  · exact safe_parseAddressRangePort henv _ _ _
  · split
    · exact safe_parseAddressRangePort henv _ _ _
    · exact safe_emit_any _ _

theorem splitFirst_of_count {x : Char} {s : Str} (h : s.count x = 1) : splitFirst x s ≠ none := by
  induction s with
  | nil => cases h
  | cons y s ih =>
    rw [splitFirst]
    split
    · exact fun h => nomatch h
    · rename_i e
      rw [List.count_cons_of_ne e] at h
      cases hs : splitFirst x s with
      | none => exact absurd hs (ih h)
      | some r => exact fun h => nomatch h

theorem safe_parseAddress6 (henv : Answerable env c) (inp : Str) : Safe c (parseAddress6 env inp (inp.count ':') []) fun _ => True := by
  rw [parseAddress6]
  refine safe_bind safe_config fun c' hc => ?_
  rw [hc]
  split
  · split
    · exact safe_emit_any _ _
    · exact safe_parseAddressRangePort henv _ _ _
    · split
      · exact safe_emit_any _ _
      · split
        · exact safe_emit_any _ _
        · exact safe_parseAddressRangePort henv _ _ _
  · split
    · rename_i h
      split
      · rename_i hn
        exact absurd hn (splitFirst_of_count h)
      · exact safe_parseAddressRangePort henv _ _ _
    · exact safe_parseAddressRangePort henv _ _ _

theorem safe_parseAddress (henv : Answerable env c) (inp mask : Str) : Safe c (parseAddress env inp mask []) fun _ => True := by
  rw [parseAddress]
  refine safe_bind safe_config fun c' hc => ?_
  rw [hc]
  have h4 : Safe c (do return (true, ← parseAddress4 env inp []) : PM (Bool × List Range)) fun _ => True :=
    safe_bind (safe_parseAddress4 henv inp) fun _ _ => safe_pure trivial
  have h6 : Safe c (do return (false, ← parseAddress6 env inp (inp.count ':') []) : PM (Bool × List Range)) fun _ => True :=
    safe_bind (safe_parseAddress6 henv inp) fun _ _ => safe_pure trivial
  dsimp only
  repeat' split
  all_goals first | exact h4 | exact h6

theorem safe_addressMask (henv : c.flags .addressMask = true → SomeAnswer env) (mask : Str) (a : Addr) (v4 : Bool) :
    Safe c (addressMask env mask a v4) fun _ => True := by
  have hemit : ∀ msg, Safe c (emitError msg >>= fun _ => (Pure.pure none : PM (Option Bytes16))) fun _ => True :=
    fun msg => safe_bind (safe_emit msg) fun _ _ => safe_pure trivial
  rw [addressMask]
  refine safe_bind safe_config fun c' hc => ?_
  rw [hc]
  dsimp only
  generalize (if v4 = true then mask else (mask.drop 1).dropLast) = m
  split
  · exact hemit _
  rename_i hf
  have hf : c.flags .addressMask = true := by
    cases h : c.flags .addressMask
    · rw [h] at hf
      exact absurd rfl hf
    · rfl
  split
  · exact hemit _
  split
  · exact hemit _
  split
  · exact hemit _
  split
  · exact safe_pure trivial
  split
  · exact hemit _
  · rename_i h
    exact absurd h (henv hf _ _ _)
  · split
    · exact hemit _
    · split
      · exact hemit _
      · exact safe_pure trivial
  · split
    · exact hemit _
    · split
      · exact hemit _
      · exact safe_pure trivial
  · exact hemit _

theorem clearLow_ok (n count : Nat) (h : count ≤ 8 * (n + 1)) (bits : Bytes16) : ∃ b, clearLow (n + 1) count bits = .ok b := by
  induction n generalizing count bits with
  | zero =>
    rw [clearLow, if_neg (by omega)]
    exact ⟨_, rfl⟩
  | succ n ih =>
    rw [clearLow]
    split
    · exact ih _ (by omega) _
    · exact ⟨_, rfl⟩

theorem safe_setMask (bits : Bytes16) (a : Addr) : Safe c (PM.lift (onLocal (Addr.setMask bits) a)) fun _ => True :=
  safe_lift ⟨_, rfl, trivial⟩

theorem safe_parseMask (henv : c.flags .addressMask = true → SomeAnswer env) (mask : Str) (a : Addr) (v4 : Bool) :
    Safe c (parseMask env mask a v4) fun _ => True := by
  have hemit : ∀ msg, Safe c (emitError msg >>= fun _ => (Pure.pure a : PM Addr)) fun _ => True :=
    fun msg => safe_bind (safe_emit msg) fun _ _ => safe_pure trivial
  rw [parseMask]
  split
  · exact safe_pure trivial
  split
  · exact hemit _
  · split
    · exact hemit _
    · split
      · exact hemit _
      · rename_i n _ _ _
        refine safe_bind (R := fun _ => True) (safe_lift ?_) fun _ _ => safe_setMask _ _
        obtain ⟨b, hb⟩ := clearLow_ok 15 (if v4 = true then 32 - n else 128 - n) (by split <;> omega) (Vector.replicate 16 255)
        exact ⟨b, hb, trivial⟩
  · refine safe_bind (safe_addressMask henv mask a v4) fun o _ => ?_
    split
    · exact safe_pure trivial
    · exact safe_setMask _ _

theorem safe_maskLoop (henv : c.flags .addressMask = true → SomeAnswer env) (mask : Str) (v4 : Bool) (l : List Range) :
    Safe c (maskLoop env mask v4 l) fun _ => True := by
  induction l with
  | nil => exact safe_pure trivial
  | cons r l ih =>
    rw [maskLoop]
    exact safe_bind safe_config fun _ _ => safe_bind (safe_parseMask henv _ _ _) fun _ _ => safe_bind ih fun _ _ => safe_pure trivial

theorem safe_parseCidr (henv : Answerable env c) (inp : Str) : Safe c (parseCidr env inp []) fun _ => True := by
  rw [parseCidr]
  refine safe_bind safe_config fun c' hc => ?_
  rw [hc]
  dsimp only
  split
  · rename_i hm
    refine safe_bind safe_errorCountNow fun _ _ => safe_bind (safe_parseAddress henv _ _) fun _ _ => ?_
    refine safe_bind (safe_maskLoop (henv.mask hm) _ _ _) fun _ _ => safe_bind safe_errorCountNow fun _ _ => ?_
    split <;> exact safe_pure trivial
  · exact safe_bind (safe_parseAddress henv _ _) fun _ _ => safe_pure trivial

theorem safe_seqEntries (henv : Answerable env c) (es : List Str) : Safe c (seqEntries env es) fun _ => True := by
  induction es with
  | nil => exact safe_pure trivial
  | cons e es ih =>
    rw [seqEntries]
    exact safe_bind (safe_parseCidr henv e) fun l _ => safe_bind ih fun _ _ => safe_pure trivial

theorem takeWhile_le (f : Char → Bool) (s : Str) : (s.takeWhile f).length ≤ s.length := (List.takeWhile_sublist f).length_le

theorem safe_parseUnsorted (henv : Answerable env c) (inp : Str) : Safe c (parseUnsorted env inp) fun _ => True := by
  rw [parseUnsorted]
  refine safe_bind safe_config fun c' hc => ?_
  rw [hc]
  split
  · rw [parseSingle]
    refine safe_bind safe_config fun c' hc => ?_
    rw [hc]
    dsimp only
    split
    · refine safe_bind (R := fun _ => True) (safe_lift ?_) fun e _ => safe_parseCidr henv e
      rw [substr, if_neg]
      · exact ⟨_, rfl, trivial⟩
      · have := takeWhile_le isSpace inp
        rw [singleStart]
        omega
    · exact safe_parseCidr henv inp
  · intro p hp
    rw [parseList_eq, hp]
    exact safe_bind (safe_seqEntries henv _) (fun l _ => safe_pure (Q := fun _ => True) trivial) p hp

end

/-! ## No undefined behaviour -/

/-- The function has no undefined behaviour, whatever the parser. -/
def NoUb {α : Type} (m : PM α) : Prop := ∀ p w, (m p).2 ≠ .ub w

theorem noUb_pure {α : Type} (a : α) : NoUb (Pure.pure a : PM α) := fun _ _ h => nomatch h
theorem noUb_throw {α : Type} (e : Exc) : NoUb (PM.throw e : PM α) := fun _ _ h => nomatch h
theorem noUb_config : NoUb PM.config := fun _ _ h => nomatch h
theorem noUb_getAllow (f : Allow) : NoUb (getAllow f) := fun _ _ h => nomatch h
theorem noUb_emit (msg : Str) : NoUb (emitError msg) := fun _ _ h => nomatch h
theorem noUb_errorCountNow : NoUb errorCountNow := fun _ _ h => nomatch h
theorem noUb_lift {α : Type} {r : Res α} (h : ∀ w, r ≠ .ub w) : NoUb (PM.lift r) := fun _ w => h w

theorem noUb_bind {α β : Type} {m : PM α} {f : α → PM β} (h1 : NoUb m) (h2 : ∀ a, NoUb (f a)) : NoUb (m >>= f) := by
  intro p w
  rw [PM.bind_def]
  have := h1 p
  cases hm : m p with
  | mk p' r =>
    rw [hm] at this
    cases r with
    | ok a => exact h2 a p' w
    | throw e => exact fun h => nomatch h
    | ub v => exact absurd rfl (this v)

theorem res_bind_noUb {α β : Type} {r : Res α} {f : α → Res β} (h1 : ∀ w, r ≠ .ub w) (h2 : ∀ a w, f a ≠ .ub w) : ∀ w, (r >>= f) ≠ .ub w := by
  intro w
  cases r with
  | ok a => rw [Res.bind_ok]; exact h2 a w
  | throw e => exact fun h => nomatch h
  | ub v => exact absurd rfl (h1 v)

theorem onLocal_noUb {m : SM Addr Unit} {a : Addr} (h : ∀ w, (m a).2 ≠ .ub w) : ∀ w, onLocal m a ≠ .ub w := by
  intro w
  rw [onLocal]
  have := h
  cases hm : m a with
  | mk a' r =>
    rw [hm] at this
    cases r with
    | ok _ => exact fun h => nomatch h
    | throw e => exact fun h => nomatch h
    | ub v => exact absurd rfl (this v)

theorem setProtocol_noUb (n : Int) (a : Addr) : ∀ w, (Addr.setProtocol n a).2 ≠ .ub w := by
  intro w
  rw [Addr.setProtocol]
  split
  · split <;> exact fun h => nomatch h
  · exact fun h => nomatch h

theorem makeRange_noUb {a : Res Addr} (ha : ∀ w, a ≠ .ub w) (hostname : Str) (n : Int) (d : Bool) :
    ∀ w, makeRange a hostname n d ≠ .ub w := by
  rw [makeRange]
  refine res_bind_noUb ha fun a => res_bind_noUb (onLocal_noUb fun _ h => nomatch h) fun a => ?_
  split
  · exact res_bind_noUb (onLocal_noUb (setProtocol_noUb _ _)) fun a =>
      res_bind_noUb (onLocal_noUb fun _ h => nomatch h) fun _ _ h => nomatch h
  · exact res_bind_noUb (fun _ h => nomatch h) fun a =>
      res_bind_noUb (onLocal_noUb fun _ h => nomatch h) fun _ _ h => nomatch h

theorem ofIn_noUb (sa : SockaddrIn) : ∀ w, Addr.ofIn sa ≠ .ub w := by
  intro w
  rw [Addr.ofIn, Addr.setIpv4]
  by_cases h : sa.family ≠ AF_INET
  · rw [if_pos h]; exact fun h => nomatch h
  · rw [if_neg h]; exact fun h => nomatch h

theorem ofIn6_noUb (sa : SockaddrIn6) : ∀ w, Addr.ofIn6 sa ≠ .ub w := by
  intro w
  rw [Addr.ofIn6, Addr.setIpv6]
  by_cases h : sa.family ≠ AF_INET6
  · rw [if_pos h]; exact fun h => nomatch h
  · rw [if_neg h]; exact fun h => nomatch h

theorem dropDuplicates_noUb (a : Addr) (l : List Range) : ∀ w, dropDuplicates a l ≠ .ub w := by
  induction l with
  | nil => exact fun _ h => nomatch h
  | cons r l ih =>
    rw [dropDuplicates]
    refine res_bind_noUb (onLocal_noUb (setProtocol_noUb _ _)) fun b w => ?_
    split
    · exact fun h => nomatch h
    · exact ih w

/-- One step of the proofs that a function has no undefined behaviour. -/
macro "noUb_step" : tactic => `(tactic| first
  | exact noUb_pure _ | exact noUb_throw _ | exact noUb_config | exact noUb_getAllow _ | exact noUb_emit _ | exact noUb_errorCountNow
  | assumption
  | exact noUb_lift (makeRange_noUb (ofIn_noUb _) _ _ _) | exact noUb_lift (makeRange_noUb (ofIn6_noUb _) _ _ _)
  | exact noUb_lift (dropDuplicates_noUb _ _)
  | (refine noUb_bind ?_ (fun _ => ?_)) | split)

theorem noUb_addrinfoLoop (hostname : Str) (d : Bool) (l : List AddrInfo) (first : Bool) (result : List Range) :
    NoUb (addrinfoLoop hostname d l first result) := by
  induction l generalizing first result with
  | nil => exact noUb_pure _
  | cons x l ih => cases x <;> rw [addrinfoLoop] <;> repeat' (first | exact ih _ _ | noUb_step)

theorem noUb_lookupAddress (env : ParseEnv) (address port : Str) (d : Bool) (result : List Range) :
    NoUb (lookupAddress env address port d result) := by
  unfold lookupAddress
  repeat' (first | exact noUb_addrinfoLoop _ _ _ _ _ | noUb_step)

theorem noUb_numericAddress (address : Str) (port : Int) (d : Bool) (result : List Range) :
    NoUb (numericAddress address port d result) := by
  unfold numericAddress
  dsimp only
  repeat' noUb_step

theorem noUb_noLookupAddress (env : ParseEnv) (address port : Str) (d : Bool) (result : List Range) :
    NoUb (noLookupAddress env address port d result) := by
  unfold noLookupAddress
  repeat' (first | exact noUb_numericAddress _ _ _ _ | noUb_step)

theorem noUb_parseAddressPort (env : ParseEnv) (address port : Str) (result : List Range) (v6 : Bool) :
    NoUb (parseAddressPort env address port result v6) := by
  unfold parseAddressPort
  refine noUb_bind noUb_config fun c => ?_
  dsimp only
  split
  · repeat' noUb_step
  · split
    · repeat' noUb_step
    · split
      · exact noUb_lookupAddress _ _ _ _ _
      · exact noUb_noLookupAddress _ _ _ _ _

theorem noUb_parseAddressRangePort (env : ParseEnv) (address port : Str) (result : List Range) (v6 : Bool) :
    NoUb (parseAddressRangePort env address port result v6) := by
  have hb : ∀ which address port, NoUb (parseBound env which address port v6) := by
    intro which address port
    unfold parseBound ignoreDuplicates
    repeat' (first | exact noUb_parseAddressPort _ _ _ _ _ | noUb_step)
  unfold parseAddressRangePort
  dsimp only
  repeat' (first | exact noUb_parseAddressPort _ _ _ _ _ | exact hb _ _ _ | noUb_step)

theorem noUb_parseAddress (env : ParseEnv) (inp mask : Str) (result : List Range) : NoUb (parseAddress env inp mask result) := by
  have h4 : NoUb (parseAddress4 env inp result) := by
    unfold parseAddress4
    repeat' (first | exact noUb_parseAddressRangePort _ _ _ _ _ | noUb_step)
  have h6 : ∀ n, NoUb (parseAddress6 env inp n result) := by
    intro n
    unfold parseAddress6
    repeat' (first | exact noUb_parseAddressRangePort _ _ _ _ _ | noUb_step)
  unfold parseAddress
  dsimp only
  repeat' (first | exact h6 _ | noUb_step)

theorem noUb_parseMask (env : ParseEnv) (h : SomeAnswer env) (mask : Str) (a : Addr) (v4 : Bool) : NoUb (parseMask env mask a v4) := by
  intro p w hw
  obtain ⟨_, hr, _⟩ := safe_value (safe_parseMask (c := p.config) (fun _ => h) mask a v4) p rfl
  rw [hr] at hw
  cases hw

theorem noUb_maskLoop (env : ParseEnv) (h : SomeAnswer env) (mask : Str) (v4 : Bool) (l : List Range) : NoUb (maskLoop env mask v4 l) := by
  intro p w hw
  obtain ⟨_, hr, _⟩ := safe_value (safe_maskLoop (c := p.config) (fun _ => h) mask v4 l) p rfl
  rw [hr] at hw
  cases hw

theorem noUb_parseCidr (env : ParseEnv) (h : SomeAnswer env) (inp : Str) (result : List Range) : NoUb (parseCidr env inp result) := by
  unfold parseCidr
  dsimp only
  repeat' (first | exact noUb_parseAddress _ _ _ _ | exact noUb_maskLoop _ h _ _ _ | noUb_step)

theorem noUb_parseUnsorted (env : ParseEnv) (h : SomeAnswer env) (inp : Str) : NoUb (parseUnsorted env inp) := by
  have hlist : ∀ fuel rest result, NoUb (parseList env fuel rest result) := by
    intro fuel
    induction fuel with
    | zero => exact fun _ _ => noUb_pure _
    | succ n ih =>
      intro rest result
      rw [parseList]
      unfold parseEntry
      dsimp only
      repeat' (first | exact ih _ _ | exact noUb_parseCidr _ h _ _ | noUb_step)
  unfold parseUnsorted parseSingle
  dsimp only
  refine noUb_bind noUb_config fun c => ?_
  split
  · refine noUb_bind noUb_config fun c => ?_
    split
    · refine noUb_bind (noUb_lift fun w => ?_) fun e => noUb_parseCidr _ h _ _
      rw [substr]
      split <;> exact fun h => nomatch h
    · exact noUb_parseCidr _ h _ _
  · exact hlist _ _ _

end Verif.Parser
