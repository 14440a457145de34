import Verif.Lemmas.ParserPost

/-!
# Lemmas about the parser: how many errors and how many ranges
-/

namespace Verif.Parser

open Spec

/-- What is known of the number of errors reported by a computation and of the value returned, if it returns one. -/
def Cost {α : Type} (c : Config) (m : PM α) (Q : Nat → α → Prop) : Prop :=
  ∀ p : Parser, p.config = c → (m p).1.config = c
    ∧ ∃ n : Nat, (m p).1.errorCount = p.errorCount + n ∧ ∀ a, (m p).2 = .ok a → Q n a

section
variable {c : Config}

theorem cost_pure {α : Type} {a : α} {Q : Nat → α → Prop} (h : Q 0 a) : Cost c (Pure.pure a : PM α) Q :=
  fun _ hp => ⟨hp, 0, (Int.add_zero _).symm, fun b hb => by cases hb; exact h⟩

theorem cost_throw {α : Type} (e : Exc) (Q : Nat → α → Prop) : Cost c (PM.throw e : PM α) Q :=
  fun p hp => ⟨hp, 0, (Int.add_zero _).symm, fun b hb => by cases hb⟩

theorem cost_lift {α : Type} {r : Res α} {Q : Nat → α → Prop} (h : ∀ a, r = .ok a → Q 0 a) : Cost c (PM.lift r) Q :=
  fun _ hp => ⟨hp, 0, (Int.add_zero _).symm, fun b hb => h b hb⟩

theorem cost_emit (msg : Str) : Cost c (emitError msg) fun n _ => n = 1 :=
  fun p hp => ⟨by rw [emitError_apply]; exact hp, 1, by rw [emitError_apply]; rfl, fun _ _ => rfl⟩

theorem cost_config {β : Type} {f : Config → PM β} {Q : Nat → β → Prop} (h : Cost c (f c) Q) : Cost c (PM.config >>= f) Q := by
  intro p hp
  rw [PM.config_bind, hp]
  exact h p hp

theorem cost_getAllow {β : Type} {x : Allow} {f : Bool → PM β} {Q : Nat → β → Prop} (h : Cost c (f (c.flags x)) Q) :
    Cost c (getAllow x >>= f) Q := by
  intro p hp
  have e : (getAllow x >>= f) p = f (p.config.flags x) p := rfl
  rw [e, hp]
  exact h p hp

theorem cost_bind {α β : Type} {m : PM α} {f : α → PM β} {R : Nat → α → Prop} {Q : Nat → β → Prop} (h1 : Cost c m R)
    (h2 : ∀ n a, R n a → Cost c (f a) fun k b => Q (n + k) b) : Cost c (m >>= f) Q := by
  intro p hp
  obtain ⟨h3, n, h4, h5⟩ := h1 p hp
  rw [PM.bind_def]
  cases hm : m p with
  | mk q r =>
    rw [hm] at h3 h4 h5
    cases r with
    | ok a =>
      obtain ⟨h6, k, h7, h8⟩ := h2 n a (h5 a rfl) q h3
      refine ⟨h6, n + k, ?_, h8⟩
      dsimp only at h4 h7 ⊢
      rw [h7, h4, Int.natCast_add, Int.add_assoc]
    | throw e => exact ⟨h3, n, h4, fun _ hb => by cases hb⟩
    | ub w => exact ⟨h3, n, h4, fun _ hb => by cases hb⟩

theorem cost_mono {α : Type} {m : PM α} {Q R : Nat → α → Prop} (h : Cost c m Q) (hqr : ∀ n a, Q n a → R n a) : Cost c m R := by
  intro p hp
  obtain ⟨h1, n, h2, h3⟩ := h p hp
  exact ⟨h1, n, h2, fun a ha => hqr n a (h3 a ha)⟩

/-- One entry is either read or refused. Exactly one range, or exactly one error, without lookup. -/
def Verdict (c : Config) (n : Nat) (l : List Range) : Prop :=
  (n = 0 ∧ l ≠ [] ∧ (c.flags .addressLookup = false → l.length = 1))
    ∨ (1 ≤ n ∧ l = [] ∧ (c.flags .addressLookup = false → n = 1))
    ∨ (n = 0 ∧ l = [] ∧ c.sort &&& SORT_NO_EMPTY ≠ 0)

theorem verdict_error : Verdict c 1 [] := .inr (.inl ⟨Nat.le_refl _, rfl, fun _ => rfl⟩)

theorem verdict_one (r : Range) : Verdict c 0 [r] := .inl ⟨rfl, by simp, fun _ => rfl⟩

theorem cost_error (msg : Str) : Cost c (emitError msg >>= fun _ => (Pure.pure [] : PM (List Range))) (Verdict c) := by
  refine cost_bind (cost_emit msg) fun n _ hn => cost_pure ?_
  subst hn
  exact verdict_error

variable {env : ParseEnv}

theorem cost_addrinfoLoop (t : Str) (d : Bool) (l : List AddrInfo) (hl : ∀ x ∈ l, GoodAnswer x) (first : Bool) (result : List Range)
    (h : l ≠ [] ∨ result ≠ []) : Cost c (addrinfoLoop t d l first result) fun n l => n = 0 ∧ l ≠ [] := by
  induction l generalizing first result with
  | nil => exact cost_pure ⟨rfl, h.resolve_left (fun h => h rfl)⟩
  | cons x l ih =>
    have ih := ih fun y hy => hl y (List.mem_cons_of_mem _ hy)
    have hx := hl x (List.mem_cons_self ..)
    cases x with
    | inet len protocol sa =>
      rw [addrinfoLoop, if_neg (not_not_intro (show len = sizeofIn from hx))]
      refine cost_bind (R := fun n _ => n = 0) (cost_lift fun _ _ => rfl) fun n r hn => ?_
      subst hn
      exact cost_mono (ih _ _ (.inr (by simp))) fun n l h => ⟨by omega, h.2⟩
    | inet6 len protocol sa =>
      rw [addrinfoLoop, if_neg (not_not_intro (show len = sizeofIn6 from hx))]
      refine cost_bind (R := fun n _ => n = 0) (cost_lift fun _ _ => rfl) fun n r hn => ?_
      subst hn
      exact cost_mono (ih _ _ (.inr (by simp))) fun n l h => ⟨by omega, h.2⟩
    | other family => exact absurd hx id

theorem cost_numericAddress (t : Str) (d : Bool) (port : Int) :
    Cost c (numericAddress t port d []) (Verdict c) := by
  rw [numericAddress]
  refine cost_config ?_
  dsimp only
  cases Inet.pton4 (cstr t) with
  | some b4 =>
    refine cost_bind (R := fun n _ => n = 0) (cost_lift fun _ _ => rfl) fun n r hn => cost_pure ?_
    subst hn
    exact verdict_one r
  | none =>
    dsimp only
    cases Inet.pton6 (cstr t) with
    | some b6 =>
      refine cost_bind (R := fun n _ => n = 0) (cost_lift fun _ _ => rfl) fun n r hn => cost_pure ?_
      subst hn
      exact verdict_one r
    | none => exact cost_error _

/-- The name service is sound, or not used. -/
def Trusted (env : ParseEnv) (c : Config) : Prop := c.flags .addressLookup = true → GoodAnswers env

theorem cost_parseAddressPort (henv : Trusted env c) (address port : Str) (v6 : Bool) :
    Cost c (parseAddressPort env address port [] v6) (Verdict c) := by
  rw [parseAddressPort]
  refine cost_config ?_
  dsimp only
  split
  · exact cost_error _
  split
  · exact cost_error _
  generalize (if address = [] then
          if v6 = true then (if c.defaultAddress6 = [] then "::".toList else c.defaultAddress6)
          else (if c.defaultAddress4 = [] then "0.0.0.0".toList else c.defaultAddress4)
        else address) = t
  generalize (if (!decide (port ≠ []) && decide (c.defaultPort ≠ -1)) = true then intStr c.defaultPort else port) = q
  cases hf : c.flags .addressLookup with
  | true =>
    rw [if_pos rfl, lookupAddress]
    refine cost_config ?_
    split
    · exact cost_error _
    · rename_i l hl
      obtain ⟨h1, h2⟩ := henv hf _ _ _ _ l hl
      refine cost_mono (cost_addrinfoLoop _ _ l h2 _ _ (.inl h1)) fun n l h => .inl ⟨h.1, h.2, fun h => ?_⟩
      rw [hf] at h; cases h
  | false =>
    rw [if_neg Bool.false_ne_true, noLookupAddress]
    refine cost_getAllow (cost_getAllow ?_)
    split
    · split
      · exact cost_error _
      · split
        · exact cost_error _
        · split
          · exact cost_error _
          · exact cost_numericAddress _ _ _
    · exact cost_numericAddress _ _ _

theorem cost_parseBound (henv : Trusted env c) (which address port : Str) (v6 : Bool) :
    Cost c (parseBound env which address port v6) fun n o =>
      (n = 0 ∧ o ≠ none) ∨ (1 ≤ n ∧ o = none ∧ (c.flags .addressLookup = false → n = 1))
        ∨ (n = 0 ∧ o = none ∧ c.sort &&& SORT_NO_EMPTY ≠ 0) := by
  rw [parseBound]
  refine cost_bind (R := fun n l => (n = 0 ∧ l ≠ [] ∧ (c.flags .addressLookup = false → l.length = 1))
    ∨ (1 ≤ n ∧ l = [] ∧ (c.flags .addressLookup = false → n = 1)) ∨ (n = 0 ∧ l = [] ∧ c.sort &&& SORT_NO_EMPTY ≠ 0)) ?_ ?_
  · rw [ignoreDuplicates]
    refine cost_bind (cost_parseAddressPort henv address port v6) fun n l hl => ?_
    cases l with
    | nil =>
      refine cost_pure ?_
      rcases hl with hl | hl | hl
      · exact absurd rfl hl.2.1
      · exact .inr (.inl hl)
      · exact .inr (.inr hl)
    | cons r l =>
      have hn : n = 0 ∧ (c.flags .addressLookup = false → l = []) := by
        rcases hl with hl | hl | hl
        · exact ⟨hl.1, fun h => List.eq_nil_of_length_eq_zero (by have := hl.2.2 h; rw [List.length_cons] at this; omega)⟩
        · cases hl.2.1
        · cases hl.2.1
      obtain ⟨hn, hl0⟩ := hn
      subst hn
      refine cost_bind (R := fun k l' => k = 0 ∧ (l = [] → l' = [])) (cost_lift fun l' h' => ⟨rfl, fun h => ?_⟩)
        fun k l' hk => cost_pure (.inl ⟨by omega, by simp, fun h => ?_⟩)
      · rw [h] at h'; cases h'; rfl
      · rw [hk.2 (hl0 h)]; rfl
  · intro n l hl
    match l, hl with
    | [], hl =>
      refine cost_pure ?_
      rcases hl with hl | hl | hl
      · exact absurd rfl hl.2.1
      · exact .inr (.inl ⟨hl.1, rfl, hl.2.2⟩)
      · exact .inr (.inr ⟨hl.1, rfl, hl.2.2⟩)
    | [r], hl =>
      refine cost_pure ?_
      rcases hl with hl | hl | hl
      · exact .inl ⟨hl.1, by simp⟩
      · cases hl.2.1
      · cases hl.2.1
    | r :: r' :: l, hl =>
      have hn : n = 0 ∧ c.flags .addressLookup = true := by
        rcases hl with hl | hl | hl
        · refine ⟨hl.1, ?_⟩
          cases hf : c.flags .addressLookup with
          | true => rfl
          | false => have := hl.2.2 hf; simp at this
        · cases hl.2.1
        · cases hl.2.1
      refine cost_bind (cost_emit _) fun k _ hk => cost_pure (.inr (.inl ⟨by omega, rfl, fun h => ?_⟩))
      rw [hn.2] at h; cases h

theorem cost_parseAddressRangePort (henv : Trusted env c) (addresses port : Str) (v6 : Bool) :
    Cost c (parseAddressRangePort env addresses port [] v6) (Verdict c) := by
  rw [parseAddressRangePort]
  refine cost_config ?_
  generalize (if c.flags .addressRange then splitFirst '-' addresses else none) = x
  have hnone : ∀ n, ((n = 0 ∧ (none : Option Range) ≠ none)
      ∨ (1 ≤ n ∧ (none : Option Range) = none ∧ (c.flags .addressLookup = false → n = 1))
      ∨ (n = 0 ∧ (none : Option Range) = none ∧ c.sort &&& SORT_NO_EMPTY ≠ 0)) → Verdict c n [] := by
    intro n h
    rcases h with h | h | h
    · exact absurd rfl h.2
    · exact .inr (.inl ⟨h.1, rfl, h.2.2⟩)
    · exact .inr (.inr ⟨h.1, rfl, h.2.2⟩)
  have hsome : ∀ (n : Nat) (r : Range), ((n = 0 ∧ some r ≠ none)
      ∨ (1 ≤ n ∧ some r = none ∧ (c.flags .addressLookup = false → n = 1))
      ∨ (n = 0 ∧ some r = none ∧ c.sort &&& SORT_NO_EMPTY ≠ 0)) → n = 0 := by
    intro n r h
    rcases h with h | h | h
    · exact h.1
    · cases h.2.1
    · cases h.2.1
  cases x with
  | none => exact cost_parseAddressPort henv _ _ _
  | some x =>
    obtain ⟨frm, to⟩ := x
    cases frm with
    | nil =>
      cases to with
      | nil => exact cost_error _
      | cons y to =>
        refine cost_bind (cost_parseBound henv _ _ _ _) fun n o ho => ?_
        cases o with
        | none => exact cost_pure (hnone n ho)
        | some r => have := hsome n r ho; subst this; exact cost_pure (verdict_one _)
    | cons y frm =>
      cases to with
      | nil =>
        refine cost_bind (cost_parseBound henv _ _ _ _) fun n o ho => ?_
        cases o with
        | none => exact cost_pure (hnone n ho)
        | some r => have := hsome n r ho; subst this; exact cost_pure (verdict_one _)
      | cons z to =>
        refine cost_bind (cost_parseBound henv _ _ _ _) fun n o ho => ?_
        cases o with
        | none => exact cost_pure (hnone n ho)
        | some r =>
          have := hsome n r ho
          subst this
          refine cost_bind (cost_parseBound henv _ _ _ _) fun n o ho' => ?_
          cases o with
          | none => refine cost_pure ?_; rw [Nat.zero_add]; exact hnone n ho'
          | some t =>
            have := hsome n t ho'
            subst this
            dsimp only
            split
            · exact cost_pure (verdict_one _)
            · rename_i hb
              refine cost_pure (.inr (.inr ⟨rfl, rfl, fun h => hb ?_⟩))
              rw [h]
              rfl

theorem cost_parseAddress4 (henv : Trusted env c) (s : Str) : Cost c (parseAddress4 env s []) (Verdict c) := by
  rw [parseAddress4]
  refine cost_config ?_
  cases splitFirst ':' s with
  | none => exact cost_parseAddressRangePort henv _ _ _
  | some x =>
    dsimp only
    split
    · exact cost_parseAddressRangePort henv _ _ _
    · exact cost_error _

theorem cost_parseAddress6 (henv : Trusted env c) (s : Str) (n : Nat) : Cost c (parseAddress6 env s n []) (Verdict c) := by
  rw [parseAddress6]
  refine cost_config ?_
  split
  · cases splitFirst ']' (s.drop 1) with
    | none => exact cost_error _
    | some x =>
      obtain ⟨a, b⟩ := x
      cases b with
      | nil => exact cost_parseAddressRangePort henv _ _ _
      | cons y b =>
        dsimp only
        split
        · exact cost_error _
        · split
          · exact cost_error _
          · exact cost_parseAddressRangePort henv _ _ _
  · split
    · cases splitFirst ':' s with
      | none => exact cost_throw _ _
      | some x => exact cost_parseAddressRangePort henv _ _ _
    · exact cost_parseAddressRangePort henv _ _ _

theorem cost_parseAddress (henv : Trusted env c) (s mask : Str) :
    Cost c (parseAddress env s mask []) fun n x => Verdict c n x.2 := by
  have h4 : Cost c (parseAddress4 env s [] >>= fun l => (Pure.pure (true, l) : PM (Bool × List Range)))
      fun n x => Verdict c n x.2 :=
    cost_bind (cost_parseAddress4 henv s) fun n l hl => cost_pure hl
  have h6 : Cost c (parseAddress6 env s (s.count ':') [] >>= fun l => (Pure.pure (false, l) : PM (Bool × List Range)))
      fun n x => Verdict c n x.2 :=
    cost_bind (cost_parseAddress6 henv s _) fun n l hl => cost_pure hl
  rw [parseAddress]
  refine cost_config ?_
  dsimp only
  repeat' (first | exact h4 | exact h6 | split)

theorem cost_addressMask (env : ParseEnv) (mask : Str) (a : Addr) (v4 : Bool) :
    Cost c (addressMask env mask a v4) fun n _ => n ≤ 1 := by
  have he : ∀ msg : Str, Cost c (emitError msg >>= fun _ => (Pure.pure none : PM (Option Bytes16))) fun n _ => n ≤ 1 :=
    fun msg => cost_bind (cost_emit msg) fun n _ hn => cost_pure (by omega)
  have hp : ∀ o : Option Bytes16, Cost c (Pure.pure o : PM (Option Bytes16)) fun n _ => n ≤ 1 := fun o => cost_pure (by omega)
  rw [addressMask]
  refine cost_config ?_
  dsimp only
  repeat' (first | exact he _ | exact hp _ | exact cost_lift fun _ _ => Nat.zero_le _ | split)

theorem cost_parseMask (env : ParseEnv) (mask : Str) (a : Addr) (v4 : Bool) :
    Cost c (parseMask env mask a v4) fun n _ => n ≤ 1 := by
  have hs : Cost c (Pure.pure a : PM Addr) fun n _ => n ≤ 1 := cost_pure (by omega)
  have he : ∀ msg : Str, Cost c (emitError msg >>= fun _ => (Pure.pure a : PM Addr)) fun n _ => n ≤ 1 :=
    fun msg => cost_bind (cost_emit msg) fun n _ hn => cost_pure (by omega)
  rw [parseMask]
  split
  · exact hs
  · split
    · exact he _
    · split
      · exact he _
      · split
        · exact he _
        · refine cost_bind (R := fun n _ => n = 0) (cost_lift fun _ _ => rfl) fun n b hn => ?_
          subst hn
          exact cost_lift fun _ _ => Nat.zero_le _
    · refine cost_bind (cost_addressMask env mask a v4) fun n o hn => ?_
      cases o with
      | none => exact cost_pure (by omega)
      | some bits => exact cost_lift fun _ _ => by omega

theorem cost_maskLoop (env : ParseEnv) (mask : Str) (v4 : Bool) (l : List Range) :
    Cost c (maskLoop env mask v4 l) fun n l' => n ≤ l.length ∧ l'.length = l.length := by
  induction l with
  | nil => exact cost_pure ⟨Nat.le_refl _, rfl⟩
  | cons x l ih =>
    rw [maskLoop]
    refine cost_config (cost_bind (cost_parseMask env _ _ _) fun n a hn => ?_)
    refine cost_bind ih fun k l' hk => cost_pure ⟨?_, ?_⟩
    · rw [List.length_cons]; omega
    · rw [List.length_cons, List.length_cons, hk.2]

theorem config_maskLoop (env : ParseEnv) (mask : Str) (v4 : Bool) (l : List Range) (p : Parser) (hp : p.config = c) :
    (maskLoop env mask v4 l p).1.config = c := (cost_maskLoop env mask v4 l p hp).1

/-- `parse_cidr()` with masks, as seen from outside. -/
theorem cost_errorCountNow {α : Type} {m : PM α} {f : α → PM (List Range)} {Q : Nat → List Range → Prop} {R : Nat → α → Prop}
    (hm : Cost c m R)
    (hf : ∀ n a, R n a → Cost c (f a) fun k l => (n + k = 0 → Q 0 l) ∧ (n + k ≠ 0 → Q (n + k) [])) :
    Cost c (errorCountNow >>= fun before => m >>= fun a => f a >>= fun l => errorCountNow >>= fun now =>
      if before = now then (Pure.pure l : PM (List Range)) else Pure.pure []) Q := by
  intro p hp
  obtain ⟨h1, n, h2, h3⟩ := hm p hp
  have e : (errorCountNow >>= fun before => m >>= fun a => f a >>= fun l => errorCountNow >>= fun now =>
      if before = now then (Pure.pure l : PM (List Range)) else Pure.pure []) p
      = (m >>= fun a => f a >>= fun l => errorCountNow >>= fun now =>
      if p.errorCount = now then (Pure.pure l : PM (List Range)) else Pure.pure []) p := rfl
  rw [e, PM.bind_def]
  cases hm : m p with
  | mk q r =>
    rw [hm] at h1 h2 h3
    cases r with
    | throw e => exact ⟨h1, n, h2, fun _ hb => by cases hb⟩
    | ub w => exact ⟨h1, n, h2, fun _ hb => by cases hb⟩
    | ok a =>
      obtain ⟨h6, k, h7, h8⟩ := hf n a (h3 a rfl) q h1
      dsimp only
      rw [PM.bind_def]
      cases hfa : f a q with
      | mk q' r' =>
        rw [hfa] at h6 h7 h8
        dsimp only at h2 h7
        have hcount : q'.errorCount = p.errorCount + ((n + k : Nat) : Int) := by
          rw [h7, h2, Int.natCast_add, Int.add_assoc]
        cases r' with
        | throw e => exact ⟨h6, n + k, hcount, fun _ hb => by cases hb⟩
        | ub w => exact ⟨h6, n + k, hcount, fun _ hb => by cases hb⟩
        | ok l =>
          have e2 : (errorCountNow >>= fun now =>
              if p.errorCount = now then (Pure.pure l : PM (List Range)) else Pure.pure []) q'
              = (if p.errorCount = q'.errorCount then (Pure.pure l : PM (List Range)) else Pure.pure []) q' := rfl
          dsimp only
          rw [e2]
          by_cases h0 : n + k = 0
          · rw [if_pos (by rw [hcount, h0]; exact (Int.add_zero _).symm)]
            refine ⟨h6, n + k, hcount, fun b hb => ?_⟩
            cases hb
            rw [h0]
            exact (h8 l rfl).1 h0
          · rw [if_neg (by rw [hcount]; omega)]
            refine ⟨h6, n + k, hcount, fun b hb => ?_⟩
            cases hb
            exact (h8 l rfl).2 h0

theorem parseCidr_masked (env : ParseEnv) (s : Str) (hm : c.flags .mask = true) (p : Parser) (hp : p.config = c) :
    parseCidr env s [] p = (errorCountNow >>= fun before =>
      parseAddress env ((splitFirst '/' (trimString s)).getD (trimString s, [])).1
        ((splitFirst '/' (trimString s)).getD (trimString s, [])).2 [] >>= fun a =>
      maskLoop env ((splitFirst '/' (trimString s)).getD (trimString s, [])).2 a.1 a.2 >>= fun l => errorCountNow >>= fun now =>
      if before = now then (Pure.pure l : PM (List Range)) else Pure.pure []) p := by
  rw [parseCidr, PM.config_bind, hp]
  simp only [hm, if_true, List.nil_append]

/-- An entry with masks either is read without error, or gives nothing. -/
theorem cost_parseCidr_mask (env : ParseEnv) (hm : c.flags .mask = true) (s : Str) :
    Cost c (parseCidr env s []) fun n l => n ≠ 0 → l = [] := by
  intro p hp
  rw [parseCidr_masked env s hm p hp]
  refine cost_errorCountNow (Q := fun n l => n ≠ 0 → l = []) (R := fun _ _ => True) ?_ (fun n a _ => ?_) p hp
  · intro p hp
    obtain ⟨errs, r, hl⟩ := logging_parseAddress env c ((splitFirst '/' (trimString s)).getD (trimString s, [])).1
      ((splitFirst '/' (trimString s)).getD (trimString s, [])).2 []
    rw [hl p hp]
    exact ⟨by rw [emitAll_config]; exact hp, errs.length, by rw [emitAll], fun _ _ => trivial⟩
  · exact cost_mono (cost_maskLoop env _ _ _) fun k l _ => ⟨fun _ h => absurd rfl h, fun _ _ => rfl⟩

theorem cost_parseCidr (henv : Trusted env c) (s : Str) : Cost c (parseCidr env s []) (Verdict c) := by
  cases hm : c.flags .mask with
  | true =>
    intro p hp
    rw [parseCidr_masked env s hm p hp]
    refine cost_errorCountNow (cost_parseAddress henv _ _) (fun n a ha => ?_) p hp
    refine cost_mono (cost_maskLoop env _ _ _) fun k l hk => ⟨fun h0 => ?_, fun h0 => ?_⟩
    · have hn : n = 0 := by omega
      subst hn
      rcases ha with ha | ha | ha
      · refine .inl ⟨rfl, fun h => ha.2.1 ?_, fun h => by rw [hk.2]; exact ha.2.2 h⟩
        rw [h] at hk
        exact List.eq_nil_of_length_eq_zero hk.2.symm
      · exact absurd ha.1 (by omega)
      · rw [ha.2.1] at hk
        exact .inr (.inr ⟨rfl, List.eq_nil_of_length_eq_zero hk.2, ha.2.2⟩)
    · refine .inr (.inl ⟨by omega, rfl, fun hf => ?_⟩)
      rcases ha with ha | ha | ha
      · have := ha.2.2 hf; omega
      · have := ha.2.2 hf; rw [ha.2.1, List.length_nil] at hk; omega
      · rw [ha.2.1, List.length_nil] at hk; omega
  | false =>
    rw [parseCidr]
    refine cost_config ?_
    dsimp only
    rw [hm, if_neg Bool.false_ne_true]
    exact cost_bind (cost_parseAddress henv _ _) fun n x hx => cost_pure hx

/-- Without lookup each entry gives one range or one error, `SORT_NO_EMPTY` excepted. -/
theorem cost_seqEntries (hf : c.flags .addressLookup = false) (es : List Str) :
    Cost c (seqEntries env es) fun n l => l.length + n ≤ es.length ∧ (c.sort &&& SORT_NO_EMPTY = 0 → l.length + n = es.length) := by
  induction es with
  | nil => exact cost_pure ⟨Nat.le_refl _, fun _ => rfl⟩
  | cons e es ih =>
    rw [seqEntries]
    have henv : Trusted env c := fun h => by rw [hf] at h; cases h
    refine cost_bind (cost_parseCidr henv e) fun n l hl => ?_
    have hl : l.length + n ≤ 1 ∧ (c.sort &&& SORT_NO_EMPTY = 0 → l.length + n = 1) := by
      rcases hl with hl | hl | hl
      · have := hl.2.2 hf; rw [this, hl.1]; exact ⟨Nat.le_refl _, fun _ => rfl⟩
      · have := hl.2.2 hf; rw [hl.2.1, this]; exact ⟨Nat.le_refl _, fun _ => rfl⟩
      · rw [hl.1, hl.2.1]; exact ⟨by decide, fun h => absurd h hl.2.2⟩
    refine cost_bind ih fun k l' hk => cost_pure ⟨?_, fun h => ?_⟩
    · rw [List.length_append, List.length_cons]; omega
    · have h1 := hl.2 h
      have h2 := hk.2 h
      rw [List.length_append, List.length_cons]
      omega

end

end Verif.Parser
