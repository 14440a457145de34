import Verif.Props.DefaultAddress
import Verif.Props.ValidatorLanguage

/-!
# Property C90: texts with a mask and without an address
-/

namespace Verif

open Spec

/-- The number which the digits write. -/
def maskNumber (m : Str) : Nat := Nat.ofDigitChars 10 m 0

/-- The default address of IPv6 is the one used: the entry has brackets; or it has a mask which only IPv6 has; or it has no mask and there
is no other default. -/
def DefaultSix (c : Config) (e m : Str) : Prop :=
  e.head? = some '[' ∨ (m ≠ [] ∧ 32 < maskNumber m) ∨ (m = [] ∧ c.defaultAddress4 = [] ∧ c.defaultAddress6 ≠ [])

/-- The default address used. -/
def DefaultUsed (c : Config) (e m u : Str) : Prop :=
  (DefaultSix c e m ∧ u = if c.defaultAddress6 = [] then "::".toList else c.defaultAddress6)
    ∨ (¬ DefaultSix c e m ∧ u = if c.defaultAddress4 = [] then "0.0.0.0".toList else c.defaultAddress4)

/-- The entries without address, and their ports; a colon alone also where ports are not allowed and the address of IPv6 is used. -/
def NoAddressMask (p : Parser) (e m q : Str) : Prop :=
  Entry (PortsAllowed p) e [] q ∨ (e = [':'] ∧ q = [] ∧ ¬ PortsAllowed p ∧ DefaultSix p.config e m)

/-- The mask of an entry without address: nothing, or a number of bits of the default address, which is `n`. -/
def DefaultMaskOf (c : Config) (e m : Str) (n k : Nat) : Prop :=
  (m = [] ∧ k = 128)
    ∨ (m ≠ [] ∧ (∀ x ∈ m, x.isDigit = true) ∧ maskNumber m ≤ 128
      ∧ ((k = maskNumber m ∧ (DefaultSix c e m ∨ ¬ isV4 n)) ∨ (k = 96 + maskNumber m ∧ ¬ DefaultSix c e m ∧ isV4 n)))

namespace Parser

section
variable {env : ParseEnv} {p : Parser}

/-- The two functions which may read an entry. -/
def readWith (env : ParseEnv) (six : Bool) (e : Str) : PM (Bool × List Range) :=
  if six then parseAddress6 env e (e.count ':') [] >>= fun l => (Pure.pure (false, l) : PM (Bool × List Range))
  else parseAddress4 env e [] >>= fun l => (Pure.pure (true, l) : PM (Bool × List Range))

theorem leftOut_cases {e : Str} (h : LeftOut e) :
    (e.head? ≠ some '[' ∧ (e = [] ∨ ∃ q, e = ':' :: q ∧ ':' ∉ q)) ∨ ∃ s, e = '[' :: ']' :: s := by
  rcases h with rfl | ⟨hh, hk⟩ | ⟨s, rfl⟩
  · exact .inl ⟨by simp, .inl rfl⟩
  · cases e with
    | nil => cases hh
    | cons x q =>
      cases hh
      rw [List.count_cons_self] at hk
      exact .inl ⟨by simp, .inr ⟨q, rfl, List.count_eq_zero.1 (by omega)⟩⟩
  · exact .inr ⟨s, rfl⟩

/-- Which of the two functions reads an entry without address, with a mask. -/
theorem parseAddress_with (env : ParseEnv) (p : Parser) {e m : Str} (hl : LeftOut e) (hnul : '\x00' ∉ m) :
    ∃ six : Bool, parseAddress env e m [] p = readWith env six e p
      ∧ (m = [] ∨ ((∀ x ∈ m, x.isDigit = true) ∧ maskNumber m ≤ 1000) → (six = true ↔ DefaultSix p.config e m))
      ∧ (e.head? = some '[' → six = true) := by
  rcases leftOut_cases hl with ⟨hb, h⟩ | ⟨s, rfl⟩
  · suffices hsuf : ∃ six : Bool, parseAddress env e m [] p = readWith env six e p
        ∧ (m = [] ∨ ((∀ x ∈ m, x.isDigit = true) ∧ maskNumber m ≤ 1000) → (six = true ↔ DefaultSix p.config e m)) by
      obtain ⟨six, h1, h2⟩ := hsuf
      exact ⟨six, h1, h2, fun h3 => absurd h3 hb⟩
    have h2 : e = [] ∨ e.head? = some ':' := by
      rcases h with rfl | ⟨q, rfl, _⟩
      · exact .inl rfl
      · exact .inr rfl
    have hcount : e.count ':' < 2 := by
      rcases h with rfl | ⟨q, rfl, hq⟩
      · decide
      · rw [List.count_cons_self, List.count_eq_zero.2 hq]
        decide
    have hc : cstr m = m := cstr_noNul fun c hc e => hnul (e ▸ hc)
    rw [parseAddress, PM.config_bind, if_neg (by omega), if_pos h2]
    by_cases hm : m = []
    · rw [if_neg (not_not_intro hm)]
      by_cases hd : p.config.defaultAddress4 = [] ∧ p.config.defaultAddress6 ≠ []
      · rw [if_pos hd]
        exact ⟨true, rfl, fun _ => iff_of_true rfl (.inr (.inr ⟨hm, hd⟩))⟩
      · rw [if_neg hd]
        refine ⟨false, rfl, fun _ => iff_of_false (by decide) ?_⟩
        rintro (h1 | ⟨h1, _⟩ | ⟨_, h1⟩)
        · exact hb h1
        · exact h1 hm
        · exact hd h1
    · rw [if_pos hm]
      by_cases h6 : m.head? = some '['
      · rw [if_pos h6]
        refine ⟨true, rfl, ?_⟩
        rintro (h1 | ⟨h1, _⟩)
        · exact absurd h1 hm
        · exact absurd (h1 _ (List.mem_of_head? h6)) (by decide)
      · rw [if_neg h6, hc]
        have digits (hd : ∀ x ∈ m, x.isDigit = true) := scanDigits_digits 1000 m hd 0 (by omega)
        cases hs : scanDigits 1000 m 0 with
        | number n =>
          have hn := digits (scanDigits_number hs)
          rw [hs] at hn
          split at hn
          · cases hn
          injection hn with hn
          dsimp only
          by_cases h32 : n > 32
          · rw [if_pos h32]
            exact ⟨true, rfl, fun _ => iff_of_true rfl (.inr (.inl ⟨hm, by rw [maskNumber, ← hn]; exact h32⟩))⟩
          · rw [if_neg h32]
            refine ⟨false, rfl, fun _ => iff_of_false (by decide) ?_⟩
            rintro (h1 | ⟨_, h1⟩ | ⟨h1, _⟩)
            · exact hb h1
            · rw [maskNumber, ← hn] at h1
              exact h32 h1
            · exact hm h1
        | tooLarge =>
          refine ⟨false, rfl, ?_⟩
          rintro (h1 | ⟨h1, h2⟩)
          · exact absurd h1 hm
          · have := digits h1
            rw [hs, if_neg (by unfold maskNumber at h2; omega)] at this
            cases this
        | notNumber =>
          refine ⟨false, rfl, ?_⟩
          rintro (h1 | ⟨h1, h2⟩)
          · exact absurd h1 hm
          · have := digits h1
            rw [hs, if_neg (by unfold maskNumber at h2; omega)] at this
            cases this
  · refine ⟨true, ?_, fun _ => iff_of_true rfl (.inl rfl), fun _ => rfl⟩
    rw [parseAddress_mask env _ m [] p ⟨by simp, .inr (by simp)⟩]
    obtain ⟨v4, h1, _, h3⟩ := parseAddress_dispatch env p ('[' :: ']' :: s)
    have hv : v4 = false := by
      cases v4 with
      | false => rfl
      | true => exact absurd rfl (h1 rfl).2
    subst hv
    rw [h3]
    rfl

/-- What these functions do of an entry without address. -/
theorem readWith_leftOut (env : ParseEnv) (p : Parser) (hr : p.config.flags .requiredAddress = false) {e : Str} (hl : LeftOut e) (six : Bool)
    (hs : e.head? = some '[' → six = true) :
    (∃ q, (Entry (PortsAllowed p) e [] q ∨ (e = ':' :: q ∧ ¬ PortsAllowed p ∧ six = true))
      ∧ readWith env six e p
        = (parseAddressPort env (usedDefault p.config six) q [] six >>= fun l => (Pure.pure (!six, l) : PM (Bool × List Range))) p)
    ∨ ((¬ ∃ q, Entry (PortsAllowed p) e [] q ∨ (e = [':'] ∧ q = [] ∧ ¬ PortsAllowed p ∧ six = true))
      ∧ ∃ msg, readWith env six e p = (emitAll [msg] p, .ok (!six, []))) := by
  have hd : p.config.flags .addressRange = false ∨ '-' ∉ ([] : Str) := .inr (by simp)
  have plain (q : Str) : parseAddressRangePort env [] q [] six p = parseAddressPort env (usedDefault p.config six) q [] six p :=
    (parseAddressRangePort_plain hd _ _).trans (parseAddressPort_nil hr q six)
  have six_of {q : Str} (h : parseAddress6 env e (e.count ':') [] p = parseAddressRangePort env [] q [] six p) (h6 : six = true) : readWith env six e p
        = (parseAddressPort env (usedDefault p.config six) q [] six >>= fun l => (Pure.pure (!six, l) : PM (Bool × List Range))) p := by
    rw [PM.bind_def, ← plain, ← h]
    subst h6
    rfl
  have four_of {q : Str} (h : parseAddress4 env e [] p = parseAddressRangePort env [] q [] six p) (h6 : six = false) : readWith env six e p
        = (parseAddressPort env (usedDefault p.config six) q [] six >>= fun l => (Pure.pure (!six, l) : PM (Bool × List Range))) p := by
    rw [PM.bind_def, ← plain, ← h]
    subst h6
    rfl
  rcases leftOut_cases hl with ⟨hb, rfl | ⟨q, rfl, hq⟩⟩ | ⟨s, rfl⟩
  · refine .inl ⟨[], .inl (.bare4 (by simp)), ?_⟩
    cases six with
    | true =>
      refine six_of ?_ rfl
      rw [parseAddress6, PM.config_bind, if_neg (by simp), if_neg (by simp)]
    | false =>
      refine four_of ?_ rfl
      rw [parseAddress4, PM.config_bind]
      rfl
  · have hk : (':' :: q).count ':' = 1 := by rw [List.count_cons_self, List.count_eq_zero.2 hq]
    have hsp : splitFirst ':' (':' :: q) = some ([], q) := splitFirst_append (a := []) (by simp)
    cases six with
    | true =>
      refine .inl ⟨q, ?_, six_of ?_ rfl⟩
      · by_cases hp : PortsAllowed p
        · exact .inl (.port4 (u := []) (by simp) hq hp)
        · exact .inr ⟨rfl, hp, rfl⟩
      · rw [parseAddress6, PM.config_bind, if_neg hb, if_pos hk, hsp]
    | false =>
      by_cases hp : PortsAllowed p
      · refine .inl ⟨q, .inl (.port4 (u := []) (by simp) hq hp), four_of ?_ rfl⟩
        rw [parseAddress4, PM.config_bind, hsp]
        dsimp only
        rw [if_pos (ports_or.2 hp)]
      · refine .inr ⟨?_, ?_⟩
        · rintro ⟨q', h | ⟨_, _, _, h⟩⟩
          · generalize hu : ([] : Str) = u at h
            generalize ht : ':' :: q = t at h
            cases h with
            | bare4 _ => subst hu; cases ht
            | port4 _ _ h => exact hp h
            | bare6 h => subst hu; cases ht
            | bracket => cases ht
            | port6 h => exact hp h
          · cases h
        · refine ⟨"Port not allowed (".toList ++ ':' :: q ++ ").".toList, ?_⟩
          show (parseAddress4 env (':' :: q) [] >>= fun l => (Pure.pure (true, l) : PM (Bool × List Range))) p = _
          rw [PM.bind_def, parseAddress4, PM.config_bind, hsp]
          dsimp only
          rw [if_neg (fun h => hp (ports_or.1 h)), PM.bind_of_ok (emitError_apply _ p)]
          rfl
  · obtain rfl : six = true := hs rfl
    have hsp : splitFirst ']' (('[' :: ']' :: s).drop 1) = some ([], s) := splitFirst_append (a := []) (by simp)
    have hsplit : parseAddress6 env ('[' :: ']' :: s) (('[' :: ']' :: s).count ':') [] p = (match s with
        | [] => parseAddressRangePort env [] [] [] true
        | x :: port =>
          if x ≠ ':' then do
            emitError ("The IPv6 address \"".toList ++ '[' :: ']' :: s ++ "\" is followed by unknown data.".toList)
            return []
          else if !p.config.flags .port && !p.config.flags .requiredPort then do
            emitError ("Port not allowed (".toList ++ '[' :: ']' :: s ++ ").".toList)
            return []
          else parseAddressRangePort env [] port [] true) p := by
      rw [parseAddress6, PM.config_bind, if_pos (show ('[' :: ']' :: s).head? = some '[' from rfl), hsp]
      cases s <;> rfl
    cases s with
    | nil => exact .inl ⟨[], .inl (.bracket (u := [])), six_of hsplit rfl⟩
    | cons x q =>
      dsimp only at hsplit
      have noEntry (h : ¬ (x = ':' ∧ PortsAllowed p)) : ¬ ∃ q', Entry (PortsAllowed p) ('[' :: ']' :: x :: q) [] q'
          ∨ ('[' :: ']' :: x :: q = [':'] ∧ q' = [] ∧ ¬ PortsAllowed p ∧ true = true) := by
        rintro ⟨q', h1 | ⟨h1, _⟩⟩
        · generalize hu : ([] : Str) = u at h1
          generalize ht : '[' :: ']' :: x :: q = t at h1
          cases h1 with
          | bare4 _ => subst hu; cases ht
          | port4 _ _ _ => subst hu; cases ht
          | bare6 h => subst hu; cases ht
          | bracket => subst hu; cases ht
          | port6 hp =>
            subst hu
            have e1 : x :: q = ':' :: q' := (List.cons.inj (List.cons.inj ht).2).2
            exact h ⟨(List.cons.inj e1).1, hp⟩
        · cases h1
      by_cases hx : x ≠ ':'
      · rw [if_pos hx] at hsplit
        refine .inr ⟨noEntry fun h => hx h.1, "The IPv6 address \"".toList ++ '[' :: ']' :: x :: q ++ "\" is followed by unknown data.".toList, ?_⟩
        show (parseAddress6 env _ _ [] >>= fun l => (Pure.pure (false, l) : PM (Bool × List Range))) p = _
        rw [PM.bind_def, hsplit, PM.bind_of_ok (emitError_apply _ p)]
        rfl
      · obtain rfl : x = ':' := Classical.not_not.1 hx
        rw [if_neg hx] at hsplit
        by_cases hp : PortsAllowed p
        · rw [if_neg (fun h => ports_not.1 h hp)] at hsplit
          exact .inl ⟨q, .inl (.port6 (u := []) hp), six_of hsplit rfl⟩
        · rw [if_pos (ports_not.2 hp)] at hsplit
          refine .inr ⟨noEntry fun h => hp h.2, "Port not allowed (".toList ++ '[' :: ']' :: ':' :: q ++ ").".toList, ?_⟩
          show (parseAddress6 env _ _ [] >>= fun l => (Pure.pure (false, l) : PM (Bool × List Range))) p = _
          rw [PM.bind_def, hsplit, PM.bind_of_ok (emitError_apply _ p)]
          rfl

end

end Parser

theorem entry_leftOut {P : Prop} {e q : Str} (h : Entry P e [] q) :
    (e = [] ∧ q = []) ∨ (e = ':' :: q ∧ ':' ∉ q ∧ P) ∨ (e = "[]".toList ∧ q = []) ∨ (e = '[' :: ']' :: ':' :: q ∧ P) := by
  generalize hu : ([] : Str) = u at h
  cases h with
  | bare4 _ => subst hu; exact .inl ⟨rfl, rfl⟩
  | port4 _ hq hp => subst hu; exact .inr (.inl ⟨rfl, hq, hp⟩)
  | bare6 h => subst hu; simp at h
  | bracket => subst hu; exact .inr (.inr (.inl ⟨rfl, rfl⟩))
  | port6 hp => subst hu; exact .inr (.inr (.inr ⟨rfl, hp⟩))

theorem noAddress_leftOut {p : Parser} {e m q : Str} (h : NoAddressMask p e m q) : LeftOut e := by
  rcases h with h | ⟨rfl, _⟩
  · rcases entry_leftOut h with ⟨rfl, _⟩ | ⟨rfl, hq, _⟩ | ⟨rfl, _⟩ | ⟨rfl, _⟩
    · exact .inl rfl
    · exact .inr (.inl ⟨rfl, by rw [List.count_cons_self, List.count_eq_zero.2 hq]; decide⟩)
    · exact .inr (.inr ⟨[], rfl⟩)
    · exact .inr (.inr ⟨_, rfl⟩)
  · exact .inr (.inl ⟨rfl, by decide⟩)

theorem noAddress_port {p : Parser} {e m q q' : Str} (h : NoAddressMask p e m q)
    (h' : Entry (PortsAllowed p) e [] q' ∨ e = ':' :: q') : q' = q := by
  have h1 : (e = [] ∧ q = []) ∨ e = ':' :: q ∨ (e = "[]".toList ∧ q = []) ∨ e = '[' :: ']' :: ':' :: q := by
    rcases h with h | ⟨h1, h2, _⟩
    · rcases entry_leftOut h with h | h | h | h
      · exact .inl h
      · exact .inr (.inl h.1)
      · exact .inr (.inr (.inl h))
      · exact .inr (.inr (.inr h.1))
    · exact .inr (.inl (by rw [h1, h2]))
  have h2 : (e = [] ∧ q' = []) ∨ e = ':' :: q' ∨ (e = "[]".toList ∧ q' = []) ∨ e = '[' :: ']' :: ':' :: q' := by
    rcases h' with h | h
    · rcases entry_leftOut h with h | h | h | h
      · exact .inl h
      · exact .inr (.inl h.1)
      · exact .inr (.inr (.inl h))
      · exact .inr (.inr (.inr h.1))
    · exact .inr (.inl h)
  rcases h1 with ⟨rfl, rfl⟩ | rfl | ⟨rfl, rfl⟩ | rfl <;> simp at h2 <;> first | exact h2 | exact h2.symm

/-- The entry without address, once it is known which default it uses. -/
theorem defaultUsed_eq {c : Config} {e m u : Str} {six : Bool} (h : six = true ↔ DefaultSix c e m) :
    DefaultUsed c e m u ↔ u = Parser.usedDefault c six := by
  cases six with
  | true =>
    have := h.1 rfl
    exact ⟨fun h1 => h1.elim And.right fun h2 => absurd this h2.1, fun h1 => .inl ⟨this, h1⟩⟩
  | false =>
    have : ¬ DefaultSix c e m := fun h1 => absurd (h.2 h1) (by decide)
    exact ⟨fun h1 => h1.elim (fun h2 => absurd h2.1 this) And.right, fun h1 => .inr ⟨this, h1⟩⟩

theorem defaultUsed_ex (c : Config) (e m : Str) : ∃ u, DefaultUsed c e m u := by
  by_cases h : DefaultSix c e m
  · exact ⟨_, .inl ⟨h, rfl⟩⟩
  · exact ⟨_, .inr ⟨h, rfl⟩⟩

/-! ### C90 -/

/-- C90: an entry without address is read as the default address, with the port and the mask it writes. -/
theorem C90_accepted (env : ParseEnv) (p : Parser) (inp t e m u q : Str) (n port k : Nat) (h : ReadsMask p inp) (ht : Trims inp t)
    (hcut : CutMask t e m) (hr : p.config.flags .requiredAddress = false) (he : NoAddressMask p e m q) (hu : DefaultUsed p.config e m u)
    (ha : AddressOf u n) (hq : PortOf env p.config q port) (hm : DefaultMaskOf p.config e m n k) :
    ∃ r, Parser.parse env inp p = (p, .ok [r]) ∧ r.hasFrom = true ∧ r.hasTo = false ∧ ip r.lo.getIpv6.addr = n ∧ r.lo.getPort = port
      ∧ ip r.lo.getMask = prefixMask k ∧ r.lo.hostname = u ∧ (r.lo.portDefined = true ↔ q ≠ []) := by
  have hl := noAddress_leftOut he
  have hdig : m = [] ∨ ((∀ x ∈ m, x.isDigit = true) ∧ maskNumber m ≤ 1000) := by
    rcases hm with ⟨h1, _⟩ | ⟨_, h1, h2, _⟩
    · exact .inl h1
    · exact .inr ⟨h1, by omega⟩
  have hnul : '\x00' ∉ m := by
    rcases hdig with rfl | ⟨h1, _⟩
    · simp
    · exact fun h2 => absurd (h1 _ h2) (by decide)
  obtain ⟨six, hw, hsix, _⟩ := Parser.parseAddress_with env p hl hnul
  have hsix := hsix hdig
  rcases Parser.readWith_leftOut env p hr hl six (fun h1 => hsix.2 (.inl h1)) with ⟨q', hq', hread⟩ | ⟨hno, _⟩
  swap
  · refine absurd ⟨q, ?_⟩ hno
    rcases he with h1 | ⟨h1, h2, h3, h4⟩
    · exact .inl h1
    · exact .inr ⟨h1, h2, h3, hsix.2 h4⟩
  obtain rfl : q' = q := noAddress_port he (hq'.imp_right And.left)
  obtain rfl := (defaultUsed_eq hsix).1 hu
  obtain ⟨b, hb, hrd⟩ := Parser.address_readable ha
  obtain ⟨hle, hg⟩ := Parser.portOf_given hq
  obtain ⟨r, h1, h3⟩ := Parser.parseAddressPort_fresh (env := env) ⟨h.lookup, h.protocol⟩ hrd hle hg six
  have h1 : Parser.parseAddress env e m [] p = (p, .ok (!six, [r])) := by
    rw [hw, hread, PM.bind_of_ok h1]
    rfl
  have haddr : ip r.lo.getIpv6.addr = n := by
    rw [Addr.getIpv6, h3.address]
    exact hb
  have hport : r.lo.getPort = port := by
    rw [Addr.getPort, h3.address]
    show (swap16 (swap16 (BitVec.ofNat 16 port))).toNat = port
    rw [swap16_swap16, BitVec.toNat_ofNat, Nat.mod_eq_of_lt (by have := hq.1; omega)]
  have hv4 : r.lo.isIpv4 = true ↔ isV4 n := by
    rw [← haddr]
    exact isIpv4_iff r.lo
  rcases hm with ⟨rfl, rfl⟩ | ⟨m0, m1, m2, hk⟩
  · refine ⟨r, ?_, h3.hasFrom, h3.hasTo, haddr, hport, ?_, h3.hostname, by rw [h3.portDefined, decide_eq_true_eq]⟩
    · have hchoose : Parser.chooseMask p.config [] (!six) = [] := by
        rw [Parser.chooseMask, if_neg (by simp), h.default4, h.default6]
        simp
      have := parse_readsMask h ht hcut h1 (p2 := p) (l2 := [r]) (by
        rw [Parser.maskLoop, PM.config_bind, hchoose]
        rfl)
      rw [this, if_pos rfl]
    · rw [Addr.getMask, h3.mask]
      decide
  · have hlimit : maskNumber m ≤ Parser.maskLimit (!six && r.lo.isIpv4)
        ∧ k = 128 - Parser.maskLimit (!six && r.lo.isIpv4) + maskNumber m := by
      rcases hk with ⟨rfl, hk⟩ | ⟨rfl, h4, h5⟩
      · have : (!six && r.lo.isIpv4) = false := by
          cases hs : six with
          | true => rfl
          | false =>
            cases hr4 : r.lo.isIpv4 with
            | false => rfl
            | true =>
              rcases hk with h5 | h5
              · exact absurd (hsix.2 h5) (by rw [hs]; decide)
              · exact absurd (hv4.1 hr4) h5
        rw [this]
        exact ⟨m2, by show _ = 0 + _; omega⟩
      · have hs : six = false := by
          cases hs : six with
          | true => exact absurd (hsix.1 hs) h4
          | false => rfl
        rw [hs, hv4.2 h5]
        refine ⟨?_, rfl⟩
        show maskNumber m ≤ 32
        exact Nat.le_of_not_lt fun h6 => h4 (.inr (.inl ⟨m0, h6⟩))
    have hmax : Parser.maskLimit (!six && r.lo.isIpv4) ≤ 128 := by
      rw [Parser.maskLimit]
      split <;> omega
    refine ⟨{ r with lo := Parser.withMask (!six && r.lo.isIpv4) (maskNumber m) r.lo }, ?_, ?_⟩
    · have := parse_readsMask h ht hcut h1 (p2 := p)
        (Parser.maskLoop_ok env m m0 m1 (!six) [r] (fun x hx => by rw [List.mem_singleton.1 hx]; exact hlimit.1) p)
      rw [this, if_pos rfl]
      rfl
    · refine ⟨h3.hasFrom, h3.hasTo, haddr, hport, ?_, h3.hostname, by show r.lo.portDefined = true ↔ _; rw [h3.portDefined, decide_eq_true_eq]⟩
      show ip (prefixBytes _) = _
      rw [ip_prefixBytes _ (by have := hlimit.1; omega), hlimit.2, Nat.add_comm]

/-- C90: the other entries without address are refused. -/
theorem C90_refused (env : ParseEnv) (p : Parser) (inp t e m : Str) (h : ReadsMask p inp) (ht : Trims inp t) (hcut : CutMask t e m)
    (hl : LeftOut e) (hr : p.config.flags .requiredAddress = false) (hnul : '\x00' ∉ t)
    (hn4 : '\x00' ∉ p.config.defaultAddress4) (hn6 : '\x00' ∉ p.config.defaultAddress6)
    (hno : ¬ ∃ u q n port k, NoAddressMask p e m q ∧ DefaultUsed p.config e m u ∧ AddressOf u n ∧ PortOf env p.config q port
      ∧ DefaultMaskOf p.config e m n k) :
    ∃ p', Parser.parse env inp p = (p', .ok []) ∧ p'.config = p.config ∧ p'.getErrorCount = p.getErrorCount + 1
      ∧ p'.hasErrors = true ∧ p.errorMessages <+: p'.errorMessages := by
  have key (msg : Str) (l : List Range) (v4 : Bool) (p1 : Parser) (h1 : Parser.parseAddress env e m [] p = (p1, .ok (v4, l)))
      (l2 : List Range) (h2 : Parser.maskLoop env m v4 l p1 = (Parser.emitAll [msg] p, .ok l2)) :
      ∃ p', Parser.parse env inp p = (p', .ok []) ∧ p'.config = p.config ∧ p'.getErrorCount = p.getErrorCount + 1
        ∧ p'.hasErrors = true ∧ p.errorMessages <+: p'.errorMessages := by
    refine ⟨Parser.emitAll [msg] p, ?_, rfl, ?_, ?_, ?_⟩
    · rw [parse_readsMask h ht hcut h1 h2, if_neg]
      simp [Parser.emitAll]
    · simp [Parser.emitAll, Parser.getErrorCount]
    · simp [Parser.emitAll, Parser.hasErrors]
    · simp [Parser.emitAll, Parser.errorMessages]
  have hnm : '\x00' ∉ m := fun hx => hnul ((cutMask_mem hcut).2 _ hx)
  obtain ⟨six, hw, hsix, hs⟩ := Parser.parseAddress_with env p hl hnm
  rcases Parser.readWith_leftOut env p hr hl six hs with ⟨q, hq, hread⟩ | ⟨hno', msg, hread⟩
  swap
  · exact key msg [] (!six) _ (hw.trans hread) [] rfl
  have hdne : '\x00' ∉ Parser.usedDefault p.config six := by
    unfold Parser.usedDefault
    split <;> split
    · decide
    · exact hn6
    · decide
    · exact hn4
  by_cases hacc : ∃ n port, AddressOf (Parser.usedDefault p.config six) n ∧ PortOf env p.config q port
  swap
  · obtain ⟨msg, h1⟩ := Parser.parseAddressPort_refuses (env := env) (p := p) h.lookup hdne (.inl (Parser.usedDefault_ne _ _))
      (fun ⟨n, port, h1, h2⟩ => hacc ⟨n, port, h1, h2⟩) six
    refine key msg [] (!six) _ (hw.trans ?_) [] rfl
    rw [hread, PM.bind_def, h1]
    rfl
  obtain ⟨n, port, ha, hport⟩ := hacc
  obtain ⟨b, hb, hrd⟩ := Parser.address_readable ha
  obtain ⟨hle, hg⟩ := Parser.portOf_given hport
  obtain ⟨r, h1, h3⟩ := Parser.parseAddressPort_fresh (env := env) ⟨h.lookup, h.protocol⟩ hrd hle hg six
  have h1 : Parser.parseAddress env e m [] p = (p, .ok (!six, [r])) := by
    rw [hw, hread, PM.bind_of_ok h1]
    rfl
  have haddr : ip r.lo.getIpv6.addr = n := by
    rw [Addr.getIpv6, h3.address]
    exact hb
  have hv4 : r.lo.isIpv4 = true ↔ isV4 n := by
    rw [← haddr]
    exact isIpv4_iff r.lo
  have hmax : Parser.maskLimit (!six && r.lo.isIpv4) ≤ 128 := by
    rw [Parser.maskLimit]
    split <;> omega
  have entry (hs : six = true ↔ DefaultSix p.config e m) : NoAddressMask p e m q := by
    rcases hq with h2 | ⟨rfl, hp, h4⟩
    · exact .inl h2
    · have : q = [] := Classical.byContradiction fun h5 => hp (Parser.accepts_ports (u := Parser.usedDefault p.config six) ⟨n, port, ha, hport⟩ h5)
      subst this
      exact .inr ⟨rfl, rfl, hp, hs.1 h4⟩
  have m0 : m ≠ [] := by
    intro m0
    have hs := hsix (.inl m0)
    exact hno ⟨_, q, n, port, 128, entry hs, (defaultUsed_eq hs).2 rfl, ha, hport, .inl ⟨m0, rfl⟩⟩
  obtain ⟨msg, hmsg⟩ := Parser.parseMask_refuses env m0 hnm r.lo (!six && r.lo.isIpv4) p h.addressMask (by
    rintro ⟨k1, k2⟩
    have hs := hsix (.inr ⟨k1, by unfold maskNumber; omega⟩)
    have mk (k : Nat) (hk : (k = maskNumber m ∧ (DefaultSix p.config e m ∨ ¬ isV4 n)) ∨ (k = 96 + maskNumber m ∧ ¬ DefaultSix p.config e m ∧ isV4 n)) :
        False :=
      hno ⟨_, q, n, port, k, entry hs, (defaultUsed_eq hs).2 rfl, ha, hport, .inr ⟨m0, k1, by unfold maskNumber; omega, hk⟩⟩
    by_cases h6 : DefaultSix p.config e m
    · exact mk _ (.inl ⟨rfl, .inl h6⟩)
    · by_cases h7 : isV4 n
      · exact mk _ (.inr ⟨rfl, h6, h7⟩)
      · exact mk _ (.inl ⟨rfl, .inr h7⟩))
  refine key msg [r] (!six) p h1 [r] ?_
  have hchoose : Parser.chooseMask p.config m (!six) = m := by rw [Parser.chooseMask, if_pos m0]
  rw [Parser.maskLoop, PM.config_bind, hchoose, PM.bind_of_ok hmsg]
  rfl

/-- C90: with C88, all the texts accepted, the address left out or not. -/
theorem C90_language (env : ParseEnv) (p : Parser) (inp t e m : Str) (h : ReadsMask p inp) (ht : Trims inp t) (hcut : CutMask t e m)
    (hnul : '\x00' ∉ t) (hn4 : '\x00' ∉ p.config.defaultAddress4) (hn6 : '\x00' ∉ p.config.defaultAddress6) :
    (∃ r, (Parser.parse env inp p).2 = .ok [r])
      ↔ (∃ u q n port k, Entry (PortsAllowed p) e u q ∧ AddressOf u n ∧ PortOf env p.config q port ∧ MaskOf e m k)
        ∨ (p.config.flags .requiredAddress = false
          ∧ ∃ u q n port k, NoAddressMask p e m q ∧ DefaultUsed p.config e m u ∧ AddressOf u n ∧ PortOf env p.config q port
            ∧ DefaultMaskOf p.config e m n k) := by
  constructor
  · intro hr
    by_cases hl : p.config.flags .requiredAddress = true ∨ ¬ LeftOut e
    · exact .inl ((C88_language env p inp t e m h ht hcut hnul hl).1 hr)
    · obtain ⟨h3, h4⟩ := not_or.1 hl
      have h3 : p.config.flags .requiredAddress = false := by simpa using h3
      refine .inr ⟨h3, Classical.byContradiction fun hno => ?_⟩
      obtain ⟨p', h1, _⟩ := C90_refused env p inp t e m h ht hcut (Classical.not_not.1 h4) h3 hnul hn4 hn6 hno
      obtain ⟨r, hr⟩ := hr
      rw [h1] at hr
      cases hr
  · rintro (⟨u, q, n, port, k, he, ha, hq, hm⟩ | ⟨h3, u, q, n, port, k, he, hu, ha, hq, hm⟩)
    · obtain ⟨r, hr, _⟩ := C88_accepted env p inp t e m u q n port k h ht hcut he ha hq hm
      exact ⟨r, by rw [hr]⟩
    · obtain ⟨r, hr, _⟩ := C90_accepted env p inp t e m u q n port k h ht hcut h3 he hu ha hq hm
      exact ⟨r, by rw [hr]⟩

/-- C90: the addresses which the result matches are those of the network of the default address. -/
theorem C90_matches (env : ParseEnv) (p : Parser) (inp t e m u q : Str) (n port k : Nat) (h : ReadsMask p inp) (ht : Trims inp t)
    (hcut : CutMask t e m) (hr : p.config.flags .requiredAddress = false) (he : NoAddressMask p e m q) (hu : DefaultUsed p.config e m u)
    (ha : AddressOf u n) (hq : PortOf env p.config q port) (hm : DefaultMaskOf p.config e m n k) :
    ∃ l, Parser.parse env inp p = (p, .ok l)
      ∧ ∀ a : Addr, ∃ b, addressMatchRanges l a = .ok b ∧ (b = true ↔ InNetwork (ip a.getIpv6.addr) n k) := by
  obtain ⟨r, h1, h2, h3, h4, _, h5, _⟩ := C90_accepted env p inp t e m u q n port k h ht hcut hr he hu ha hq hm
  have hk : k ≤ 128 := by
    rcases hm with ⟨_, rfl⟩ | ⟨m0, _, h6, ⟨rfl, _⟩ | ⟨rfl, h7, _⟩⟩
    · omega
    · omega
    · have : ¬ 32 < maskNumber m := fun h8 => h7 (.inr (.inl ⟨m0, h8⟩))
      omega
  refine ⟨[r], h1, fun a => ?_⟩
  obtain ⟨b, h6, h7⟩ := C35_any_range [r] a
  refine ⟨b, h6, h7.trans ?_⟩
  rw [← network_match ⟨h2, h3, h4, hk, h5⟩ a]
  simp

/-- C90: a value with a mask and without address which the validator accepts: the mask has at most 128 bits; where ports are not allowed, a
colon needs a mask which only IPv6 has. -/
theorem C90_validator (env : Validator.Env) (data : List Str) (v : Parser) (n : Nat) (h : Validator.create env data = .ok (v, n))
    (ho : OneNumber env.split data) (hm : allowedByOptions env.split data .mask) (hm' : ¬ allowedByOptions env.split data .addressMask)
    (calls : List (ParseEnv × Str)) (penv : ParseEnv) (value t e m : Str) (ht : Trims value t) (hcut : CutMask t e m) (hnul : '\x00' ∉ t)
    (hl : LeftOut e) (ha : ¬ allowedByOptions env.split data .requiredAddress) :
    (∃ m, (Validator.validate penv value (Validator.validateAll calls v)).2 = .ok (true, m))
      ↔ ∃ q, (Entry (PortsByOptions env.split data) e [] q
            ∨ (e = [':'] ∧ q = [] ∧ ¬ PortsByOptions env.split data ∧ m ≠ [] ∧ 32 < maskNumber m))
          ∧ ValidPort penv env.split data q ∧ (m = [] ∨ ((∀ x ∈ m, x.isDigit = true) ∧ maskNumber m ≤ 128)) := by
  obtain ⟨ha4, ha6, hd4, hd6, _⟩ := created_flags h ho.noDefault
  obtain ⟨inp, hi, hparse, htrim⟩ := blank_value (created_separates h ho) ⟨created_off h ho.hash, created_off h ho.semicolon⟩ value
  have hr : ReadsMask v inp := ⟨created_off h ho.lookup, (C69_allowed_iff env data v n h _).2 hm, created_off h hm', .inl (created_off h ho.range),
    created_protocol h, created_one h ho hi, created_unsorted h, hd4, hd6⟩
  have hra := created_off h ha
  rw [← created_ports h]
  have hsix : DefaultSix v.config e m ↔ e.head? = some '[' ∨ (m ≠ [] ∧ 32 < maskNumber m) := by
    unfold DefaultSix
    refine or_congr Iff.rfl ⟨fun h1 => h1.elim id fun h2 => absurd ha6 h2.2.2, .inl⟩
  have mask {n : Nat} (hm : m = [] ∨ ((∀ x ∈ m, x.isDigit = true) ∧ maskNumber m ≤ 128)) : ∃ k, DefaultMaskOf v.config e m n k := by
    by_cases m0 : m = []
    · exact ⟨128, .inl ⟨m0, rfl⟩⟩
    · obtain ⟨m1, m2⟩ := hm.resolve_left m0
      by_cases h6 : DefaultSix v.config e m ∨ ¬ isV4 n
      · exact ⟨_, .inr ⟨m0, m1, m2, .inl ⟨rfl, h6⟩⟩⟩
      · exact ⟨_, .inr ⟨m0, m1, m2, .inr ⟨rfl, fun h7 => h6 (.inl h7), Classical.not_not.1 fun h7 => h6 (.inr h7)⟩⟩⟩
  constructor
  · intro hv
    refine Classical.byContradiction fun hno => invalid_of_parse h calls penv value ?_ hv
    rw [hparse]
    obtain ⟨p', h1, _, _, h2, _⟩ := C90_refused penv v inp t e m hr (htrim t ht) hcut hl hra hnul (by rw [ha4]; decide) (by rw [ha6]; decide)
      (fun ⟨u, q, k, port, b, h3, _, _, h5, h6⟩ => hno ⟨q, by
        rcases h3 with h3 | ⟨rfl, h7, h8, h9⟩
        · exact .inl h3
        · refine .inr ⟨rfl, h7, h8, ?_⟩
          rcases hsix.1 h9 with h9 | h9
          · cases h9
          · exact h9, (created_port h ho penv q).1 ⟨port, h5⟩, by
        rcases h6 with ⟨h6, _⟩ | ⟨_, h6, h7, _⟩
        · exact .inl h6
        · exact .inr ⟨h6, h7⟩⟩)
    rw [h1]
    exact h2
  · rintro ⟨q, he, hq, hb⟩
    obtain ⟨port, hport⟩ := (created_port h ho penv q).2 hq
    have he' : NoAddressMask v e m q := by
      rcases he with he | ⟨h1, h2, h3, h4⟩
      · exact .inl he
      · exact .inr ⟨h1, h2, h3, hsix.2 (.inr h4)⟩
    obtain ⟨u, hu⟩ := defaultUsed_ex v.config e m
    have hau : ∃ k, AddressOf u k := by
      rcases hu with ⟨_, rfl⟩ | ⟨_, rfl⟩
      · rw [if_pos ha6]
        exact ⟨_, address_any6⟩
      · rw [if_pos ha4]
        exact ⟨_, address_any4⟩
    obtain ⟨k, hk⟩ := hau
    obtain ⟨b, hb⟩ := mask (n := k) hb
    obtain ⟨r, h1, _⟩ := C90_accepted penv v inp t e m u q k port b hr (htrim t ht) hcut hra he' hu hk hport hb
    rw [← hparse] at h1
    exact valid_of_parse h calls penv value h1

/-! ### Examples and the claim -/

/-- A parser which allows ports and masks, with a default IPv6 address. -/
def defaultMaskParser : Parser := ParserOp.runAll [(sampleEnv, .setDefaultAddress "[::1]".toList)] maskParser

theorem defaultMaskParser_reads (inp : Str) (h : inp ≠ []) : ReadsMask defaultMaskParser inp where
  lookup := by decide
  mask := by decide
  addressMask := by decide
  range := .inl (by decide)
  protocol := by decide
  one := ⟨h, fun x _ => by
    rw [separates, show defaultMaskParser.config.flags .multiAddressesCommas = false by decide,
      show defaultMaskParser.config.flags .multiAddressesSpaces = false by decide,
      show defaultMaskParser.config.flags .multiAddressesNewlines = false by decide]
    rfl, ⟨by decide, by decide⟩⟩
  sort := by unfold Unsorted; decide
  default4 := by decide
  default6 := by decide

/-- ":80/64" is the network of the default address. -/
example : ∃ l, Parser.parse sampleEnv ":80/64".toList defaultMaskParser = (defaultMaskParser, .ok l)
    ∧ ∀ a : Addr, ∃ b, addressMatchRanges l a = .ok b ∧ (b = true ↔ InNetwork (ip a.getIpv6.addr) 1 64) :=
  C90_matches sampleEnv defaultMaskParser ":80/64".toList ":80/64".toList ":80".toList "64".toList "::1".toList "80".toList 1 80 64
    (defaultMaskParser_reads _ (by decide)) (trims_self (by decide) (by decide)) ⟨by decide, .inr rfl⟩ (by decide)
    (.inl (.port4 (u := []) (by decide) (by decide) (.inl (by decide))))
    (.inl ⟨.inr (.inl ⟨by decide, by decide⟩), by decide⟩)
    (.inr ⟨by decide, .zip (p := []) (ps := []) (z := 7) (q := "1".toList) (qs := [1]) (.inl ⟨rfl, rfl⟩)
      (.inr (.one ⟨HexNum.snoc (t := []) (v := 0) (c := '1') (d := 1) .nil (.inl (by decide)), by decide, by decide⟩)) (by decide) (by decide)⟩)
    ⟨by decide, by rw [if_pos (by decide)]; exact ⟨.inl (by decide), by decide⟩⟩
    (.inr ⟨by decide, by decide, by decide, .inl ⟨by decide, .inl (.inr (.inl ⟨by decide, by decide⟩))⟩⟩)

/-- C90, as stated: where one default address is defined, it is the address of the texts which have none. -/
def C90_claim : Prop :=
  ∀ (env : ParseEnv) (p : Parser) (inp t e m : Str) (r : Range), ReadsMask p inp → Trims inp t → CutMask t e m → LeftOut e →
    p.config.flags .requiredAddress = false → (p.config.defaultAddress4 = [] ∧ p.config.defaultAddress6 ≠ []) →
    (Parser.parse env inp p).2 = .ok [r] → r.lo.hostname = p.config.defaultAddress6

/-- The result is one range, of this name. -/
def oneNamed (x : Res (List Range)) (u : Str) : Bool :=
  match x with
  | .ok [r] => decide (r.lo.hostname = u)
  | _ => false

theorem oneNamed_elim {x : Res (List Range)} {u : Str} (h : oneNamed x u = true) : ∃ r, x = .ok [r] ∧ r.lo.hostname = u := by
  unfold oneNamed at h
  split at h
  · exact ⟨_, rfl, of_decide_eq_true h⟩
  · cases h

/-- C90 is false as stated: ":80/24" is the network of `0.0.0.0`, although the default address is `::1`. -/
theorem C90_claim_fails : ¬ C90_claim := by
  intro h
  obtain ⟨r, h1, h2⟩ := oneNamed_elim (show oneNamed (Parser.parse sampleEnv ":80/24".toList defaultMaskParser).2 "0.0.0.0".toList = true by
    decide +kernel)
  have h3 := h sampleEnv defaultMaskParser ":80/24".toList ":80/24".toList ":80".toList "24".toList r (defaultMaskParser_reads _ (by decide))
    (trims_self (by decide) (by decide)) ⟨by decide, .inr rfl⟩ (.inr (.inl ⟨rfl, by decide⟩)) (by decide) ⟨by decide, by decide⟩ h1
  rw [h2] at h3
  exact absurd h3 (by decide)

/-- Where no mask only IPv6 has is written, nor brackets, the default address of IPv4 or `0.0.0.0` is used, whatever else is defined. -/
theorem C90_small_mask_partial (env : ParseEnv) (p : Parser) (inp t e m q u : Str) (n port : Nat) (h : ReadsMask p inp) (ht : Trims inp t)
    (hcut : CutMask t e m) (hr : p.config.flags .requiredAddress = false) (he : Entry (PortsAllowed p) e [] q) (hb : e.head? ≠ some '[')
    (m0 : m ≠ []) (m1 : ∀ x ∈ m, x.isDigit = true) (m2 : maskNumber m ≤ 32)
    (hu : u = if p.config.defaultAddress4 = [] then "0.0.0.0".toList else p.config.defaultAddress4) (ha : AddressOf u n) (h4 : isV4 n)
    (hq : PortOf env p.config q port) :
    ∃ r, Parser.parse env inp p = (p, .ok [r]) ∧ ip r.lo.getIpv6.addr = n ∧ r.lo.getPort = port ∧ ip r.lo.getMask = prefixMask (96 + maskNumber m)
      ∧ r.lo.hostname = u := by
  have h6 : ¬ DefaultSix p.config e m := by
    rintro (h1 | ⟨_, h1⟩ | ⟨h1, _⟩)
    · exact hb h1
    · omega
    · exact m0 h1
  obtain ⟨r, h1, _, _, h2, h3, h5, h7, _⟩ := C90_accepted env p inp t e m u q n port _ h ht hcut hr (.inl he) (.inr ⟨h6, hu⟩) ha hq
    (.inr ⟨m0, m1, by omega, .inr ⟨rfl, h6, h4⟩⟩)
  exact ⟨r, h1, h2, h3, h5, h7⟩

end Verif
