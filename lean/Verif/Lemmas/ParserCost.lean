import Verif.Lemmas.ParserSort

/-!
# Lemmas about the parser: how many errors a call counts

The ranges which are already in a list pay for the errors which may still come (`w`).
-/

namespace Verif

open Spec

namespace Parser

/-- A call with the configuration `c` counts at most `n` errors, of which `w` of the value returned are left. -/
def Costs {α : Type} (c : Config) (n : Nat) (w : α → Nat) (m : PM α) : Prop :=
  ∀ p, p.config = c → (m p).1.config = c ∧ p.errorCount ≤ (m p).1.errorCount ∧ (m p).1.errorCount ≤ p.errorCount + n
    ∧ ∀ a, (m p).2 = .ok a → (m p).1.errorCount + w a ≤ p.errorCount + n

variable {c : Config} {α β : Type} {n k : Nat} {w : α → Nat} {w' : β → Nat}

theorem costs_pure {a : α} (h : w a ≤ n) : Costs c n w (Pure.pure a : PM α) := by
  intro p hp
  refine ⟨hp, Int.le_refl _, ?_, fun b hb => ?_⟩
  · show p.errorCount ≤ p.errorCount + n
    omega
  · obtain rfl : a = b := Res.ok.inj hb
    show p.errorCount + w a ≤ p.errorCount + n
    omega

theorem costs_emit {msg : Str} {w : Unit → Nat} (h : 1 + w () ≤ n) : Costs c n w (emitError msg) := by
  intro p hp
  refine ⟨hp, ?_, ?_, fun _ _ => ?_⟩
  · show p.errorCount ≤ p.errorCount + 1
    omega
  · show p.errorCount + 1 ≤ p.errorCount + n
    omega
  · show p.errorCount + 1 + w () ≤ p.errorCount + n
    omega

theorem costs_lift {r : Res α} (h : ∀ a, r = .ok a → w a ≤ n) : Costs c n w (PM.lift r) := by
  intro p hp
  refine ⟨hp, Int.le_refl _, ?_, fun a ha => ?_⟩
  · show p.errorCount ≤ p.errorCount + n
    omega
  · have := h a ha
    show p.errorCount + w a ≤ p.errorCount + n
    omega

theorem costs_throw {e : Exc} : Costs c n w (PM.throw e : PM α) := costs_lift (r := .throw e) fun _ h => (nomatch h)

theorem costs_bind {m : PM α} {f : α → PM β} (h : Costs c n w m) (hf : ∀ a, Costs c (w a) w' (f a)) : Costs c n w' (m >>= f) := by
  intro p hp
  obtain ⟨h1, h2, h3, h4⟩ := h p hp
  rw [PM.bind_def]
  rcases hm : m p with ⟨p', r⟩
  rw [hm] at h1 h2 h3 h4
  cases r with
  | ok a =>
    obtain ⟨g1, g2, g3, g4⟩ := hf a p' h1
    have h4 := h4 a rfl
    simp only at h1 h2 h3 h4 ⊢
    refine ⟨g1, by omega, by omega, fun b hb => ?_⟩
    have := g4 b hb
    omega
  | throw e => exact ⟨h1, h2, h3, fun b hb => (nomatch hb)⟩
  | ub e => exact ⟨h1, h2, h3, fun b hb => (nomatch hb)⟩

theorem costs_config {f : Config → PM β} (h : Costs c n w' (f c)) : Costs c n w' (PM.config >>= f) := by
  intro p hp
  rw [PM.config_bind, hp]
  exact h p hp

theorem costs_allow {f : Bool → PM β} {flag : Allow} (h : Costs c n w' (f (c.flags flag))) : Costs c n w' (getAllow flag >>= f) := by
  intro p hp
  have e : (getAllow flag >>= f) p = f (p.config.flags flag) p := rfl
  rw [e, hp]
  exact h p hp

theorem costs_mono {m : PM α} (h : Costs c n w m) (hn : n ≤ k) : Costs c k w m := by
  intro p hp
  obtain ⟨h1, h2, h3, h4⟩ := h p hp
  refine ⟨h1, h2, by omega, fun a ha => ?_⟩
  have := h4 a ha
  omega

/-- An error, then the value. -/
theorem costs_error {msg : Str} {a : α} (h : 1 + w a ≤ n) : Costs c n w (do emitError msg; return a) :=
  costs_bind (costs_emit (w := fun _ => w a) h) fun _ => costs_pure (Nat.le_refl _)

/-- The most answers of the system to one question. -/
def AtMost (env : ParseEnv) (k : Nat) : Prop :=
  ∀ node service numeric hint l, env.getaddrinfo node service numeric hint = .list l → l.length ≤ k

theorem costs_addrinfoLoop (hostname : Str) (d : Bool) (l : List AddrInfo) (first : Bool) (result : List Range) :
    Costs c (l.length + result.length) List.length (addrinfoLoop hostname d l first result) := by
  induction l generalizing first result with
  | nil => exact costs_pure (by simp)
  | cons x l ih =>
    have he : ∀ (msg : Str) first, Costs c ((x :: l).length + result.length) List.length
        (emitError msg >>= fun _ => addrinfoLoop hostname d l first result) := fun msg first =>
      costs_bind (costs_emit (w := fun _ => l.length + result.length) (by simp; omega)) fun _ => ih first result
    have hr : ∀ (r : Res Range) first, Costs c ((x :: l).length + result.length) List.length
        (PM.lift r >>= fun r => addrinfoLoop hostname d l first (result ++ [r])) := fun r first =>
      costs_bind (costs_lift (w := fun _ => (x :: l).length + result.length) fun _ _ => Nat.le_refl _) fun a =>
        costs_mono (ih first (result ++ [a])) (by simp; omega)
    cases x with
    | inet len pr sa =>
      unfold addrinfoLoop
      split
      · exact he _ _
      · exact hr _ _
    | inet6 len pr sa =>
      unfold addrinfoLoop
      split
      · exact he _ _
      · exact hr _ _
    | other f =>
      unfold addrinfoLoop
      cases first with
      | true => exact he _ _
      | false => exact costs_mono (ih false result) (by simp)

variable {env : ParseEnv} {A : Nat}

theorem costs_lookup (hA : AtMost env A) (h1 : 1 ≤ A) (address port : Str) (d : Bool) (result : List Range) :
    Costs c (A + result.length) List.length (lookupAddress env address port d result) := by
  unfold lookupAddress
  refine costs_config ?_
  cases hg : env.getaddrinfo (cstr address) (if port = [] then ['0'] else cstr port) false (hintProtocol c.protocol) with
  | error r e => exact costs_error (by omega)
  | list l => exact costs_mono (costs_addrinfoLoop address d l true result) (by have := hA _ _ _ _ _ hg; omega)

theorem costs_numeric (address : Str) (port : Int) (d : Bool) (result : List Range) :
    Costs c (1 + result.length) List.length (numericAddress address port d result) := by
  unfold numericAddress
  refine costs_config ?_
  have hr : ∀ r : Res Range, Costs c (1 + result.length) List.length (PM.lift r >>= fun r => return result ++ [r]) := fun r =>
    costs_bind (costs_lift (w := fun _ => 1 + result.length) fun _ _ => Nat.le_refl _) fun a => costs_pure (by simp; omega)
  dsimp only
  split
  · exact hr _
  · split
    · exact hr _
    · exact costs_error (Nat.le_refl _)

theorem costs_noLookup (address port : Str) (d : Bool) (result : List Range) :
    Costs c (1 + result.length) List.length (noLookupAddress env address port d result) := by
  unfold noLookupAddress
  refine costs_allow (costs_allow ?_)
  split
  · split
    · exact costs_error (Nat.le_refl _)
    · split
      · exact costs_error (Nat.le_refl _)
      · split
        · exact costs_error (Nat.le_refl _)
        · exact costs_numeric _ _ _ _
  · exact costs_numeric _ _ _ _

theorem costs_addressPort (hA : c.flags .addressLookup = true → AtMost env A) (h1 : 1 ≤ A) (address port : Str) (result : List Range)
    (ipv6 : Bool) : Costs c (A + result.length) List.length (parseAddressPort env address port result ipv6) := by
  unfold parseAddressPort
  refine costs_config ?_
  dsimp only
  split
  · exact costs_error (by omega)
  · split
    · exact costs_error (by omega)
    · split
      · rename_i hl
        exact costs_lookup (hA hl) h1 _ _ _ _
      · exact costs_mono (costs_noLookup _ _ _ _) (by omega)

theorem dropDuplicates_length (first : Addr) (l : List Range) : ∀ l', dropDuplicates first l = .ok l' → l'.length ≤ l.length := by
  induction l with
  | nil => intro l' h; cases h; exact Nat.le_refl _
  | cons r l ih =>
    intro l' h
    unfold dropDuplicates at h
    cases hn : onLocal (Addr.setProtocol first.protocol) r.lo with
    | throw e => rw [hn] at h; cases h
    | ub e => rw [hn] at h; cases h
    | ok next =>
      rw [hn] at h
      simp only [Res.bind_ok] at h
      split at h
      · cases h; exact Nat.le_refl _
      · have := ih l' h
        rw [List.length_cons]
        omega

theorem costs_ignoreDuplicates (hA : c.flags .addressLookup = true → AtMost env A) (h1 : 1 ≤ A) (address port : Str) (result : List Range)
    (ipv6 : Bool) : Costs c (A + result.length) List.length (ignoreDuplicates env address port result ipv6) := by
  unfold ignoreDuplicates
  refine costs_bind (costs_addressPort hA h1 address port result ipv6) fun l => ?_
  cases l with
  | nil => exact costs_pure (Nat.le_refl _)
  | cons r l =>
    exact costs_bind (costs_lift (w := fun l' : List Range => l'.length + 1) fun l' hl' => by
      have := dropDuplicates_length _ _ _ hl'
      simp only [List.length_cons]
      omega) fun l' => costs_pure (by simp)

/-- What a bound is worth. -/
def worth : Option Range → Nat
  | none => 0
  | some _ => 1

theorem costs_bound (hA : c.flags .addressLookup = true → AtMost env A) (h1 : 1 ≤ A) (which address port : Str)
    (ipv6 : Bool) : Costs c A worth (parseBound env which address port ipv6) := by
  unfold parseBound
  refine costs_bind (costs_ignoreDuplicates hA h1 address port [] ipv6) fun l => ?_
  cases l with
  | nil => exact costs_pure (Nat.le_refl _)
  | cons r l =>
    cases l with
    | nil => exact costs_pure (Nat.le_refl _)
    | cons s l => exact costs_error (by simp [worth])

/-- Something which is paid for stays paid for. -/
theorem costs_frame {m : PM α} (h : Costs c n w m) (k : Nat) : Costs c (n + k) (fun a => w a + k) m := by
  intro p hp
  obtain ⟨h1, h2, h3, h4⟩ := h p hp
  refine ⟨h1, h2, by omega, fun a ha => ?_⟩
  have := h4 a ha
  show (m p).1.errorCount + (w a + k : Nat) ≤ _
  omega

/-- The most errors or ranges of one item. -/
def most (c : Config) (A : Nat) : Nat := if c.flags .addressRange then 2 * A - 1 else A

theorem costs_rangePort (hA : c.flags .addressLookup = true → AtMost env A) (h1 : 1 ≤ A) (addresses port : Str) (result : List Range)
    (ipv6 : Bool) : Costs c (most c A + result.length) List.length (parseAddressRangePort env addresses port result ipv6) := by
  unfold parseAddressRangePort
  refine costs_config ?_
  have hm : A ≤ most c A := by unfold most; split <;> omega
  have hb : ∀ which address, Costs c (most c A + result.length) (fun o => worth o + (most c A - A + result.length))
      (parseBound env which address port ipv6) := fun which address =>
    costs_mono (costs_frame (costs_bound hA h1 which address port ipv6) (most c A - A + result.length)) (by omega)
  split
  · exact costs_mono (costs_addressPort hA h1 _ _ _ _) (by omega)
  · exact costs_error (by omega)
  · refine costs_bind (hb _ _) fun o => ?_
    cases o with
    | none => exact costs_pure (by omega)
    | some r => exact costs_pure (by simp [worth]; omega)
  · refine costs_bind (hb _ _) fun o => ?_
    cases o with
    | none => exact costs_pure (by omega)
    | some r => exact costs_pure (by simp [worth]; omega)
  · rename_i h2 h3 h4
    have hr : c.flags .addressRange = true := by
      by_cases h : c.flags .addressRange = true
      · exact h
      · rw [if_neg h] at h4
        cases h4
    have hm2 : most c A = 2 * A - 1 := if_pos hr
    refine costs_bind (hb _ _) fun o => ?_
    cases o with
    | none => exact costs_pure (by omega)
    | some r =>
      refine costs_bind (costs_mono (costs_frame (costs_bound hA h1 _ _ port ipv6) result.length) (by simp only [worth]; omega)) fun o => ?_
      cases o with
      | none => exact costs_pure (by omega)
      | some t =>
        dsimp only
        split
        · exact costs_pure (by simp [worth]; omega)
        · exact costs_pure (by omega)

theorem costs_address4 (hA : c.flags .addressLookup = true → AtMost env A) (h1 : 1 ≤ A) (inp : Str) (result : List Range) :
    Costs c (most c A + result.length) List.length (parseAddress4 env inp result) := by
  have hm : A ≤ most c A := by unfold most; split <;> omega
  unfold parseAddress4
  refine costs_config ?_
  split
  · exact costs_rangePort hA h1 _ _ _ _
  · split
    · exact costs_rangePort hA h1 _ _ _ _
    · exact costs_error (by omega)

theorem costs_address6 (hA : c.flags .addressLookup = true → AtMost env A) (h1 : 1 ≤ A) (inp : Str) (colons : Nat) (result : List Range) :
    Costs c (most c A + result.length) List.length (parseAddress6 env inp colons result) := by
  have hm : A ≤ most c A := by unfold most; split <;> omega
  unfold parseAddress6
  refine costs_config ?_
  split
  · split
    · exact costs_error (by omega)
    · exact costs_rangePort hA h1 _ _ _ _
    · split
      · exact costs_error (by omega)
      · split
        · exact costs_error (by omega)
        · exact costs_rangePort hA h1 _ _ _ _
  · split
    · split
      · exact costs_throw
      · exact costs_rangePort hA h1 _ _ _ _
    · exact costs_rangePort hA h1 _ _ _ _

theorem costs_address (hA : c.flags .addressLookup = true → AtMost env A) (h1 : 1 ≤ A) (inp mask : Str) (result : List Range) :
    Costs c (most c A + result.length) (fun r : Bool × List Range => r.2.length) (parseAddress env inp mask result) := by
  unfold parseAddress
  refine costs_config ?_
  have h4 : Costs c (most c A + result.length) (fun r : Bool × List Range => r.2.length)
      (do return (true, ← parseAddress4 env inp result)) :=
    costs_bind (costs_address4 hA h1 _ _) fun l => costs_pure (Nat.le_refl _)
  have h6 : Costs c (most c A + result.length) (fun r : Bool × List Range => r.2.length)
      (do return (false, ← parseAddress6 env inp (inp.count ':') result)) :=
    costs_bind (costs_address6 hA h1 _ _ _) fun l => costs_pure (Nat.le_refl _)
  dsimp only
  repeat' split
  all_goals first | exact h4 | exact h6

theorem costs_addressMask (mask : Str) (cidr : Addr) (v4 : Bool) : Costs c 1 (fun _ => 0) (addressMask env mask cidr v4) := by
  unfold addressMask
  refine costs_config ?_
  dsimp only
  repeat' split
  all_goals first
    | exact costs_error (Nat.le_refl _)
    | exact costs_pure (Nat.zero_le _)
    | exact costs_lift fun _ _ => Nat.zero_le _

theorem costs_parseMask (mask : Str) (cidr : Addr) (v4 : Bool) : Costs c 1 (fun _ => 0) (parseMask env mask cidr v4) := by
  unfold parseMask
  split
  · exact costs_pure (Nat.zero_le _)
  · split
    · exact costs_error (Nat.le_refl _)
    · split
      · exact costs_error (Nat.le_refl _)
      · split
        · exact costs_error (Nat.le_refl _)
        · exact costs_bind (costs_lift (w := fun _ => 0) fun _ _ => Nat.zero_le _) fun _ => costs_lift fun _ _ => Nat.zero_le _
    · refine costs_bind (costs_addressMask mask cidr v4) fun o => ?_
      split
      · exact costs_pure (Nat.zero_le _)
      · exact costs_lift fun _ _ => Nat.zero_le _

theorem costs_maskLoop (mask : Str) (v4 : Bool) (l : List Range) :
    Costs c l.length (fun _ => 0) (maskLoop env mask v4 l) := by
  induction l with
  | nil => exact costs_pure (Nat.zero_le _)
  | cons r l ih =>
    unfold maskLoop
    refine costs_config ?_
    exact costs_bind (costs_mono (costs_frame (costs_parseMask _ _ _) l.length) (by simp; omega)) fun a =>
      costs_bind (costs_mono ih (by simp)) fun l' => costs_pure (Nat.zero_le _)

theorem maskLoop_length (mask : Str) (v4 : Bool) (l : List Range) (p : Parser) :
    ∀ l', (maskLoop env mask v4 l p).2 = .ok l' → l'.length = l.length := by
  induction l generalizing p with
  | nil => intro l' h; cases h; rfl
  | cons r l ih =>
    intro l' h
    unfold maskLoop at h
    rw [PM.config_bind, PM.bind_def] at h
    rcases hm : parseMask env (chooseMask p.config mask v4) r.lo (v4 && r.lo.isIpv4) p with ⟨p', a⟩
    rw [hm] at h
    cases a with
    | throw e => cases h
    | ub e => cases h
    | ok a =>
      simp only [PM.bind_def] at h
      rcases hl : maskLoop env mask v4 l p' with ⟨p₂, b⟩
      rw [hl] at h
      cases b with
      | throw e => cases h
      | ub e => cases h
      | ok b =>
        cases h
        have := ih p' b (by rw [hl])
        simp [this]

/-- One item. -/
theorem costs_cidr (hA : c.flags .addressLookup = true → AtMost env A) (h1 : 1 ≤ A) (inp : Str) (result : List Range) :
    Costs c (most c A + result.length) List.length (parseCidr env inp result) := by
  unfold parseCidr
  refine costs_config ?_
  dsimp only
  split
  · intro p hp
    rw [show ∀ f : Int → PM (List Range), (errorCountNow >>= f) p = f p.errorCount p from fun _ => rfl, PM.bind_def]
    obtain ⟨g1, g2, g3, g4⟩ := costs_address (env := env) hA h1 ((splitFirst '/' (trimString inp)).getD (trimString inp, [])).1
      ((splitFirst '/' (trimString inp)).getD (trimString inp, [])).2 [] p hp
    rcases hm : parseAddress env ((splitFirst '/' (trimString inp)).getD (trimString inp, [])).1
      ((splitFirst '/' (trimString inp)).getD (trimString inp, [])).2 [] p with ⟨p₁, r₁⟩
    rw [hm] at g1 g2 g3 g4
    simp only [List.length_nil, Nat.add_zero] at g1 g2 g3 g4
    cases r₁ with
    | throw e => exact ⟨g1, g2, by simp only; omega, fun _ h => (nomatch h)⟩
    | ub e => exact ⟨g1, g2, by simp only; omega, fun _ h => (nomatch h)⟩
    | ok r₁ =>
      obtain ⟨v4, l⟩ := r₁
      have g4 := g4 _ rfl
      simp only at g4 ⊢
      rw [PM.bind_def]
      obtain ⟨k1, k2, k3, _⟩ := costs_maskLoop (env := env) ((splitFirst '/' (trimString inp)).getD (trimString inp, [])).2 v4 l p₁ g1
      have kl := maskLoop_length (env := env) ((splitFirst '/' (trimString inp)).getD (trimString inp, [])).2 v4 l p₁
      rcases hl : maskLoop env ((splitFirst '/' (trimString inp)).getD (trimString inp, [])).2 v4 l p₁ with ⟨p₂, r₂⟩
      rw [hl] at k1 k2 k3 kl
      simp only at k1 k2 k3 kl ⊢
      cases r₂ with
      | throw e => exact ⟨k1, by simp only; omega, by simp only; omega, fun _ h => (nomatch h)⟩
      | ub e => exact ⟨k1, by simp only; omega, by simp only; omega, fun _ h => (nomatch h)⟩
      | ok l₂ =>
        have kl := kl l₂ rfl
        simp only
        rw [show ∀ f : Int → PM (List Range), (errorCountNow >>= f) p₂ = f p₂.errorCount p₂ from fun _ => rfl]
        split
        · refine ⟨k1, by show p.errorCount ≤ p₂.errorCount; omega, by show p₂.errorCount ≤ _; omega, fun a ha => ?_⟩
          cases ha
          rw [List.length_append]
          show p₂.errorCount + _ ≤ _
          omega
        · refine ⟨k1, by show p.errorCount ≤ p₂.errorCount; omega, by show p₂.errorCount ≤ _; omega, fun a ha => ?_⟩
          cases ha
          show p₂.errorCount + _ ≤ _
          omega
  · exact costs_bind (costs_address hA h1 _ _ _) fun a => costs_pure (Nat.le_refl _)

theorem costs_single (hA : c.flags .addressLookup = true → AtMost env A) (h1 : 1 ≤ A) (inp : Str) (result : List Range) :
    Costs c (most c A + result.length) List.length (parseSingle env inp result) := by
  unfold parseSingle
  refine costs_config ?_
  dsimp only
  split
  · exact costs_bind (costs_lift (w := fun _ => most c A + result.length) fun _ _ => Nat.le_refl _) fun a => costs_cidr hA h1 _ _
  · exact costs_cidr hA h1 _ _

theorem skipLine_length (c : Config) (s : Str) : (skipLine c s).length ≤ s.length := by
  unfold skipLine
  split
  · exact (List.dropWhile_sublist _).length_le
  · exact Nat.le_refl _

theorem costs_list (hA : c.flags .addressLookup = true → AtMost env A) (h1 : 1 ≤ A) (fuel : Nat) (rest : Str) (result : List Range) :
    Costs c (most c A * rest.length + result.length) List.length (parseList env fuel rest result) := by
  induction fuel generalizing rest result with
  | zero => exact costs_pure (by omega)
  | succ fuel ih =>
    unfold parseList
    refine costs_config ?_
    split
    · exact costs_pure (by omega)
    · rename_i hne
      have hpos : 0 < rest.length := List.length_pos_iff.2 hne
      have hlen : (rest.takeWhile fun x => !(separators c).contains x).length + (rest.dropWhile fun x => !(separators c).contains x).length
          = rest.length := by rw [← List.length_append, List.takeWhile_append_dropWhile]
      dsimp only
      generalize ht : (rest.takeWhile fun x => !(separators c).contains x) = t at hlen
      generalize hd : (rest.dropWhile fun x => !(separators c).contains x) = d at hlen
      have step : ∀ k, k + 1 ≤ rest.length → most c A * k + most c A ≤ most c A * rest.length := by
        intro k hk
        rw [← Nat.mul_succ]
        exact Nat.mul_le_mul_left _ hk
      split
      · rename_i hte
        have htp : 0 < t.length := List.length_pos_iff.2 hte
        have hk : ((skipLine c d).drop 1).length + 1 ≤ rest.length := by
          have := skipLine_length c d
          rw [List.length_drop]
          omega
        have hk := step _ hk
        have he : Costs c (most c A * rest.length + result.length)
            (fun l : List Range => l.length + most c A * ((skipLine c d).drop 1).length) (parseEntry env (entryText c t) result) := by
          unfold parseEntry
          split
          · exact costs_mono (costs_frame (costs_cidr hA h1 _ _) (most c A * ((skipLine c d).drop 1).length)) (by omega)
          · exact costs_pure (by omega)
        exact costs_bind he fun l => costs_mono (ih _ l) (by omega)
      · refine costs_mono (ih (d.drop 1) result) ?_
        have : (d.drop 1).length ≤ rest.length := by rw [List.length_drop]; omega
        have := Nat.mul_le_mul_left (most c A) this
        omega

theorem mergeLoop_length (l : List Range) : ∀ cur l', mergeLoop cur l = .ok l' → l'.length ≤ l.length + 1 := by
  induction l with
  | nil => intro cur l' h; cases h; exact Nat.le_refl _
  | cons next l ih =>
    intro cur l' h
    unfold mergeLoop at h
    cases hr : cur.unionIfPossible next with
    | throw e => rw [hr] at h; cases h
    | ub e => rw [hr] at h; cases h
    | ok r =>
      rw [hr] at h
      simp only [Res.bind_ok] at h
      split at h
      · have := ih r l' h
        rw [List.length_cons]
        omega
      · cases hm : mergeLoop next l with
        | throw e => rw [hm] at h; cases h
        | ub e => rw [hm] at h; cases h
        | ok l₂ =>
          rw [hm] at h
          cases h
          have := ih next l₂ hm
          rw [List.length_cons, List.length_cons]
          omega

theorem stableSort_length {lt : Range → Range → Res Bool} {l l' : List Range} (h : stableSort lt l = .ok l') : l'.length = l.length := by
  unfold stableSort at h
  split at h
  · cases h
    exact (sort_perm lt l).length_eq
  · cases h

end Parser

end Verif
