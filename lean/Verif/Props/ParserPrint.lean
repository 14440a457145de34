import Verif.Lemmas.ParserPrint
import Verif.Props.ParserMask

/-!
# Property C44: printed addresses parse back
-/

namespace Verif

open Spec Inet Parser

/-! ### One entry -/

section
variable {env : ParseEnv} {p : Parser} {t : Str} {b : Bytes16} {n : Nat}

theorem written_entry {e q : Str} (he : Printed e t q) (hne : t ≠ []) (hc : ∀ c ∈ t, c ∈ addressChars)
    (hd : ∀ c ∈ q, c ∈ digitChars) (hq : PortOk p.config q) (hcm : NoComments p) : HasAddress e ∧ OneEntry p e := by
  obtain ⟨⟨h1, h2⟩, _⟩ := parseAddress_written (env := sampleEnv) he hne hc hd hq []
  have hch := printed_chars he hc hd
  have hsp : ∀ c ∈ "0123456789abcdef:.[]".toList, isSpace c = false := by decide
  refine ⟨⟨h1, h2, trimString_self (fun c hc => hsp c (hch c (List.mem_of_head? hc)))
    (fun c hc => hsp c (hch c (List.mem_of_getLast? hc))), fun h => absurd (hch _ h) (by decide)⟩, h1, ?_, hcm⟩
  intro x hx
  have hx := hch x hx
  cases hb : separates p x with
  | false => rfl
  | true =>
    simp only [separates, Bool.or_eq_true, Bool.and_eq_true, beq_iff_eq] at hb
    rcases hb with (⟨_, rfl⟩ | ⟨_, rfl⟩) | ⟨_, rfl⟩ <;> exact absurd hx (by decide)

/-- No mask gets used when none is written. -/
def NoDefaultMask (p : Parser) : Prop :=
  p.config.flags .mask = false ∨ (p.config.defaultMask4 = [] ∧ p.config.defaultMask6 = [])

theorem parse_written {e q : Str} (he : Printed e t q) (hne : t ≠ []) (hc : ∀ c ∈ t, c ∈ addressChars)
    (hd : ∀ c ∈ q, c ∈ digitChars) (hq : PortOk p.config q) (hcm : NoComments p) (hs : Unsorted p) (hm : NoDefaultMask p) :
    ∃ v6, ∀ l, parseAddressPort env t q [] v6 p = (p, .ok l) → parse env e p = (p, .ok l) := by
  obtain ⟨ha, h1⟩ := written_entry he hne hc hd hq hcm
  obtain ⟨_, ⟨v6, hr⟩, _⟩ := parseAddress_written env he hne hc hd hq []
  refine ⟨v6, fun l hl => ?_⟩
  rw [PM.bind_of_ok hl] at hr
  rw [parse_one_unsorted env e p h1 hs]
  cases hmf : p.config.flags .mask with
  | false => rw [parseCidr_nomask env e [] p hmf, ha.noSpace, hr]; rfl
  | true =>
    rw [parseCidr_mask env e [] p hmf, ha.noSpace, splitFirst_none.2 ha.noSlash]
    simp only [Option.getD_none, hr]
    have hno : ∀ v4, chooseMask p.config [] v4 = [] := by
      rcases hm with hm | ⟨hm4, hm6⟩
      · rw [hmf] at hm; cases hm
      · intro v4
        rw [chooseMask, if_neg (not_not_intro rfl), hm4, hm6]
        cases v4 <;> rfl
    have e1 : ∀ v4, maskLoop env [] v4 l p = (p, .ok l) := by
      intro v4
      clear hr hl
      induction l with
      | nil => rfl
      | cons r l ih =>
        rw [maskLoop, PM.config_bind, hno]
        have : (parseMask env [] r.lo (v4 && r.lo.isIpv4)) p = (p, .ok r.lo) := rfl
        rw [PM.bind_of_ok this, PM.bind_of_ok ih]
        rfl
    simp [e1]

theorem parse_printed {e q : Str} (he : Printed e t q) (hp : Parser.Numeric p) (ht : Readable t b)
    (hc : ∀ c ∈ t, c ∈ addressChars) (hd : ∀ c ∈ q, c ∈ digitChars) (hn : n ≤ 65535) (hq : PortGiven env p.config q n)
    (hcm : NoComments p) (hs : Unsorted p) (hm : NoDefaultMask p) :
    ∃ r, parse env e p = (p, .ok [r]) ∧ Fresh r t b n (decide (q ≠ [])) := by
  obtain ⟨v6, h⟩ := parse_written (env := env) he ht.nonempty hc hd hq.ok hcm hs hm
  obtain ⟨r, h1, h2⟩ := parseAddressPort_fresh hp ht hn hq v6
  exact ⟨r, h _ h1, h2⟩

end

/-! ### The texts -/

/-- The mode prints the address, and no service name; the default address has no special form. -/
structure PlainMode (mode : BitVec 32) : Prop where
  address : mode &&& (STRING_IP_ADDRESS ||| STRING_IP_BRACKET_ADDRESS) ≠ 0
  portName : mode &&& STRING_IP_PORT_NAME = 0
  asterisk : mode &&& STRING_IP_DEFAULT_AS_ASTERISK = 0
  asIpv4 : mode &&& STRING_IP_DEFAULT_AS_IPV4 = 0

/-- The port is printed. -/
def PrintsPort (mode : BitVec 32) : Prop := mode &&& STRING_IP_PORT ≠ 0

/-- The mask is printed. -/
def PrintsMask (mode : BitVec 32) (a : Addr) : Prop :=
  mode &&& (STRING_IP_MASK ||| STRING_IP_BRACKET_MASK ||| STRING_IP_MASK_AS_ADDRESS ||| STRING_IP_MASK_IF_NEEDED) ≠ 0
    ∧ (mode &&& STRING_IP_MASK_IF_NEEDED = 0 ∨ ip a.getMask ≠ 2 ^ 128 - 1)

instance (mode : BitVec 32) : Decidable (PrintsPort mode) := inferInstanceAs (Decidable (_ ≠ _))
instance (mode : BitVec 32) (a : Addr) : Decidable (PrintsMask mode a) := inferInstanceAs (Decidable (_ ∧ _))

theorem anyOf_iff (mode f : BitVec 32) : anyOf mode f = true ↔ mode &&& f ≠ 0 := by simp [anyOf]

theorem anyOf_false (mode f : BitVec 32) : anyOf mode f = false ↔ mode &&& f = 0 := by simp [anyOf]

theorem and_or_zero {m f g : BitVec 32} (h : m &&& g = 0) : m &&& (f ||| g) = m &&& f := by
  rw [BitVec.and_or_distrib_left, h]
  exact BitVec.or_zero

theorem getMaskSize_prefix {a : Addr} {k : Nat} (h : ip a.getMask = prefixMask k) (hk : k ≤ 128) : a.getMaskSize = k := by
  rcases getMaskSize_cases a with ⟨_, h2⟩ | ⟨j, hj, h1, h2⟩
  · exact absurd h (h2 k hk)
  · rw [h2, prefixMask_inj hj hk (h1.symm.trans h)]

theorem wantsMask_iff (mode : BitVec 32) (a : Addr) : a.wantsMask mode = true ↔ PrintsMask mode a := by
  rw [Addr.wantsMask, PrintsMask, Bool.and_eq_true, anyOf_iff, Bool.or_eq_true, Bool.not_eq_true', anyOf_false, bne_iff_ne]
  have h2 : a.getMaskSize = 128 ↔ ip a.getMask = 2 ^ 128 - 1 := by
    have h128 : prefixMask 128 = 2 ^ 128 - 1 := by decide
    rcases getMaskSize_cases a with ⟨h1, h2⟩ | ⟨k, hk, h1, h2⟩
    · rw [h1]
      have := h2 128 (Nat.le_refl _)
      rw [h128] at this
      exact ⟨fun h => absurd h (by decide), fun h => absurd h this⟩
    · rw [h2, show ip a.getMask = ip a.mask from rfl, h1, ← h128]
      constructor
      · intro h
        rw [show k = 128 by omega]
      · intro h
        rw [prefixMask_inj hk (Nat.le_refl _) h]
        rfl
  rw [ne_eq a.getMaskSize, h2, or_comm]

/-- The text of the address. -/
theorem address_readable (a : Addr) :
    ∃ t, Readable t a.getIpv6.addr ∧ (∀ c ∈ t, c ∈ addressChars)
      ∧ (if isV4 (ip a.getIpv6.addr) then ':' ∉ t ∧ t = ntop4 (last4 a.bytes)
         else 2 ≤ t.count ':' ∧ t = if a.isDefault then "::".toList else ntop6 a.bytes) := by
  by_cases h : isV4 (ip a.getIpv6.addr)
  · obtain ⟨h1, h2, h3⟩ := readable_v4 h
    exact ⟨_, h1, h2, by rw [if_pos h]; exact ⟨h3, rfl⟩⟩
  · obtain ⟨s, h1, h2, h3⟩ := C22_ipv6_text ⟨fun _ => .notFound, fun _ _ => .notFound⟩ a h
    rw [toIpv6String_address] at h1
    have hs := Res.ok.inj h1
    have hc : ∀ c ∈ s, c ∈ addressChars := by
      rw [← hs]
      split
      · decide
      · exact ntop6_chars _
    exact ⟨s, readable_v6 h2 h3 hc, hc, by rw [if_neg h]; exact ⟨text6_colons h2, hs.symm⟩⟩

/-- The text printed in a plain mode: the address, the port, the mask. -/
theorem printed_text (db : NetDb) {mode : BitVec 32} {a : Addr} (hm : PlainMode mode) :
    ∃ e t, Printed e t (if PrintsPort mode then dec a.getPort else []) ∧ Readable t a.getIpv6.addr
      ∧ (∀ c ∈ t, c ∈ addressChars) ∧ (':' ∉ t ↔ isV4 (ip a.getIpv6.addr))
      ∧ (isV4 (ip a.getIpv6.addr) → ∀ x, a.maskPart4 mode = .ok x → a.toIpv4or6String db mode = .ok (e ++ x))
      ∧ (¬ isV4 (ip a.getIpv6.addr) → a.toIpv4or6String db mode = .ok (e ++ a.maskPart6 mode (Addr.includeBrackets mode))) := by
  obtain ⟨t, ht, hc, htext⟩ := address_readable a
  have f1 := (anyOf_iff _ _).2 hm.address
  have f2 := (anyOf_false _ _).2 hm.portName
  have f3 := (anyOf_false _ _).2 hm.asterisk
  have f4 := (anyOf_false _ _).2 hm.asIpv4
  have hne : dec a.getPort ≠ [] := by
    exact Nat.toDigits_ne_nil
  have hport : ∀ x, a.portPart db mode = .ok x → ∀ s, s ++ x = withPort s (if PrintsPort mode then dec a.getPort else []) := by
    intro x hx s
    rw [Addr.portPart, f2, f1] at hx
    have : anyOf mode (STRING_IP_PORT ||| STRING_IP_PORT_NAME) = true ↔ PrintsPort mode := by
      rw [anyOf_iff, and_or_zero hm.portName, PrintsPort]
    by_cases hp : PrintsPort mode
    · rw [if_pos (this.2 hp)] at hx
      have hx := Res.ok.inj hx
      rw [if_pos hp, withPort, if_neg hne, ← hx, Addr.getStrPort, decStr_dec]
      rfl
    · rw [if_neg (fun h => hp (this.1 h))] at hx
      rw [if_neg hp, ← Res.ok.inj hx, withPort, if_pos rfl, List.append_nil]
  have hport' : ∃ x, a.portPart db mode = .ok x := by
    rw [Addr.portPart, f2]
    split
    · exact ⟨_, rfl⟩
    · exact ⟨_, rfl⟩
  obtain ⟨x, hx⟩ := hport'
  by_cases h4 : isV4 (ip a.getIpv6.addr)
  · have h4' : a.isIpv4 = true := (isIpv4_iff a).2 h4
    rw [if_pos h4] at htext
    refine ⟨withPort t (if PrintsPort mode then dec a.getPort else []), t, .v4 htext.1, ht, hc, ⟨fun _ => h4, fun _ => htext.1⟩,
      ?_, fun h => absurd h4 h⟩
    intro _ y hy
    have ha : a.addressPart4 mode = .ok t := by
      rw [Addr.addressPart4, f1, if_pos rfl, if_pos h4', f3, htext.2]
      rfl
    rw [Addr.toIpv4or6String, if_pos h4', Addr.toIpv4String, ha, hx, hy]
    simp only [Res.bind_ok, hport x hx]
  · have h4' : ¬ a.isIpv4 = true := fun h' => h4 ((isIpv4_iff a).1 h')
    rw [if_neg h4] at htext
    have ha : a.addressPart6 mode = (Addr.bracketed (Addr.includeBrackets mode) t, Addr.includeBrackets mode) := by
      rw [Addr.addressPart6, f1, f3, f4, htext.2]
      cases a.isDefault <;> rfl
    have hpr : Printed (withPort (Addr.bracketed (Addr.includeBrackets mode) t) (if PrintsPort mode then dec a.getPort else [])) t
        (if PrintsPort mode then dec a.getPort else []) := by
      cases hb : Addr.includeBrackets mode with
      | true => exact .bracket htext.1
      | false =>
        have hnp : ¬ PrintsPort mode := by
          rw [Addr.includeBrackets, anyOf_false] at hb
          rw [PrintsPort, Decidable.not_not]
          have := congrArg (· &&& STRING_IP_PORT) hb
          rw [BitVec.and_assoc] at this
          have e1 : (STRING_IP_BRACKET_ADDRESS ||| STRING_IP_BRACKET_MASK ||| STRING_IP_PORT ||| STRING_IP_PORT_NAME)
            &&& STRING_IP_PORT = STRING_IP_PORT := by decide
          simp only [e1] at this
          rw [this]
          decide
        rw [if_neg hnp, withPort, if_pos rfl]
        exact .bare htext.1
    refine ⟨_, t, hpr, ht, hc, ⟨fun h => ?_, fun h => absurd h h4⟩, fun h => absurd h h4, fun _ => ?_⟩
    · have := htext.1
      rw [List.count_eq_zero.2 h] at this
      omega
    · rw [Addr.toIpv4or6String, if_neg h4', Addr.toIpv6String, ha, hx]
      simp only [Res.bind_ok, hport x hx]

theorem maskSlash_plain {mode : BitVec 32} (hm : PlainMode mode) : Addr.maskSlash mode = ['/'] := by
  rw [Addr.maskSlash, if_pos]
  rw [anyOf_iff]
  intro h0
  apply hm.address
  have := congrArg (· &&& (STRING_IP_ADDRESS ||| STRING_IP_BRACKET_ADDRESS)) h0
  rw [BitVec.and_assoc] at this
  have e1 : (STRING_IP_ADDRESS ||| STRING_IP_BRACKET_ADDRESS ||| STRING_IP_PORT ||| STRING_IP_PORT_NAME)
      &&& (STRING_IP_ADDRESS ||| STRING_IP_BRACKET_ADDRESS) = STRING_IP_ADDRESS ||| STRING_IP_BRACKET_ADDRESS := by decide
  simp only [e1] at this
  rw [this]
  decide

/-- The text when the mask is a number of bits. -/
theorem printed_text_bits (db : NetDb) {mode : BitVec 32} {a : Addr} {k : Nat} (hm : PlainMode mode)
    (hma : mode &&& STRING_IP_MASK_AS_ADDRESS = 0)
    (h : ip a.getMask = prefixMask k) (hk : k ≤ 128) (hv : isV4 (ip a.getIpv6.addr) → 96 ≤ k) :
    ∃ e t, Printed e t (if PrintsPort mode then dec a.getPort else []) ∧ Readable t a.getIpv6.addr
      ∧ (∀ c ∈ t, c ∈ addressChars) ∧ (':' ∉ t ↔ isV4 (ip a.getIpv6.addr))
      ∧ a.toIpv4or6String db mode = .ok (if PrintsMask mode a then
          e ++ '/' :: dec (if isV4 (ip a.getIpv6.addr) then k - 96 else k) else e) := by
  obtain ⟨e, t, g1, g2, g3, g4, g5, g6⟩ := printed_text db (a := a) hm
  refine ⟨e, t, g1, g2, g3, g4, ?_⟩
  have f5 := (anyOf_false _ _).2 hma
  have hslash := maskSlash_plain hm
  have hsize := getMaskSize_prefix h hk
  have hw := wantsMask_iff mode a
  by_cases h4 : isV4 (ip a.getIpv6.addr)
  · have h96 := hv h4
    have hmc : a.isMaskIpv4Compatible = true := by
      rw [maskCompatible_iff, h, prefixMask]
      have h1 : 2 ^ (128 - k) ≤ 2 ^ 32 := Nat.pow_le_pow_right (by omega) (by omega)
      have h2 : 0 < 2 ^ (128 - k) := Nat.pow_pos (by omega)
      omega
    by_cases hp : PrintsMask mode a
    · rw [if_pos hp, if_pos h4]
      apply g5 h4
      rw [Addr.maskPart4, if_pos (hw.2 hp), if_pos hmc, hslash, Addr.maskBits, f5, hsize]
      dsimp only
      rw [if_neg Bool.false_ne_true, if_neg (by omega), intStr_nonneg (by omega), decStr_dec,
        show ((k : Int) - 96).toNat = k - 96 by omega]
      rfl
    · rw [if_neg hp]
      have := g5 h4 [] (by rw [Addr.maskPart4, if_neg (fun h => hp (hw.1 h))])
      rwa [List.append_nil] at this
  · rw [g6 h4, Addr.maskPart6]
    by_cases hp : PrintsMask mode a
    · rw [if_pos hp, if_neg h4, if_pos (hw.2 hp), hslash, Addr.maskBits, f5, hsize]
      dsimp only
      rw [if_neg Bool.false_ne_true, if_neg (by omega), intStr_nonneg (by omega), decStr_dec,
        show ((k : Int)).toNat = k by omega]
      rfl
    · rw [if_neg hp, if_neg (fun h => hp (hw.1 h)), List.append_nil]

/-- The text when the mask is written as an address. -/
theorem printed_text_mask (db : NetDb) {mode : BitVec 32} {a : Addr} (hm : PlainMode mode) (hp : PrintsMask mode a)
    (hma : mode &&& STRING_IP_MASK_AS_ADDRESS ≠ 0 ∨ ∀ k, k ≤ 128 → ip a.getMask ≠ prefixMask k)
    (hv : isV4 (ip a.getIpv6.addr) → ip a.getMask / 2 ^ 32 = 2 ^ 96 - 1) :
    ∃ e t, Printed e t (if PrintsPort mode then dec a.getPort else []) ∧ Readable t a.getIpv6.addr
      ∧ (∀ c ∈ t, c ∈ addressChars) ∧ (':' ∉ t ↔ isV4 (ip a.getIpv6.addr))
      ∧ a.toIpv4or6String db mode = .ok (e ++ '/' :: if isV4 (ip a.getIpv6.addr) then ntop4 (last4 a.mask)
          else Addr.bracketed (Addr.includeBrackets mode) (ntop6 a.mask)) := by
  obtain ⟨e, t, g1, g2, g3, g4, g5, g6⟩ := printed_text db (a := a) hm
  refine ⟨e, t, g1, g2, g3, g4, ?_⟩
  have hslash := maskSlash_plain hm
  have hw := (wantsMask_iff mode a).2 hp
  have hb : a.maskBits mode = -1 := by
    rw [Addr.maskBits]
    rcases hma with h | h
    · rw [if_pos ((anyOf_iff _ _).2 h)]
    · have : a.getMaskSize = -1 := by
        rcases getMaskSize_cases a with ⟨h1, _⟩ | ⟨k, hk, h1, _⟩
        · exact h1
        · exact absurd h1 (h k hk)
      rw [this, ite_self]
  by_cases h4 : isV4 (ip a.getIpv6.addr)
  · rw [if_pos h4]
    apply g5 h4
    rw [Addr.maskPart4, if_pos hw, if_pos ((maskCompatible_iff a).2 (hv h4)), hslash, hb]
    rfl
  · rw [g6 h4, Addr.maskPart6, if_pos hw, hslash, hb, if_neg h4]
    rfl

/-! ## C44 -/

/-- The parser allows the syntax of the text, does no lookup, and reads decimal numbers. -/
structure Allows (env : ParseEnv) (p : Parser) (mode : BitVec 32) (a : Addr) : Prop where
  lookup : p.config.flags .addressLookup = false
  protocol : p.config.protocol ∈ [-1, 0, 6, 17]
  comments : NoComments p
  sort : Unsorted p
  numbers : ∀ n, n ≤ 65535 → env.convert (dec n) = some (n : Int)
  port : PrintsPort mode → p.config.flags .port = true ∨ p.config.flags .requiredPort = true
  noPort : ¬ PrintsPort mode → p.config.flags .requiredPort = false
    ∧ (p.config.defaultPort = -1 ∨ (0 ≤ p.config.defaultPort ∧ p.config.defaultPort ≤ 65535 ∧ p.config.flags .port = true))
  mask : PrintsMask mode a → p.config.flags .mask = true
  noMask : ¬ PrintsMask mode a → p.config.flags .mask = false ∨ (p.config.defaultMask4 = [] ∧ p.config.defaultMask6 = [])

theorem dec_digits (n : Nat) : ∀ c ∈ dec n, c ∈ digitChars := by
  intro c hc
  rw [← decStr_dec] at hc
  exact decStr_chars n c hc

/-- The number read as a port. -/
def portRead (p : Parser) (mode : BitVec 32) (a : Addr) : Nat :=
  if PrintsPort mode then a.getPort else if p.config.defaultPort = -1 then 0 else p.config.defaultPort.toNat

/-- What the hypotheses on the parser give. -/
theorem allows_given {env : ParseEnv} {p : Parser} {mode : BitVec 32} {a : Addr} (hp : Allows env p mode a) :
    ∃ q n, q = (if PrintsPort mode then dec a.getPort else []) ∧ n = portRead p mode a
      ∧ (∀ p' : Parser, p'.config.flags .addressLookup = p.config.flags .addressLookup → p'.config.protocol = p.config.protocol →
          Parser.Numeric p')
      ∧ (∀ c ∈ q, c ∈ digitChars) ∧ n ≤ 65535 ∧ decide (q ≠ []) = decide (PrintsPort mode)
      ∧ (∀ c : Config, c.flags .port = p.config.flags .port → c.flags .requiredPort = p.config.flags .requiredPort →
          c.defaultPort = p.config.defaultPort → PortGiven env c q n)
      ∧ (∀ (r : Range) (t : Str) (b : Bytes16), Fresh r t b n (decide (q ≠ [])) → r.lo.getPort = n) := by
  obtain ⟨q, hqdef⟩ : ∃ q, q = if PrintsPort mode then dec a.getPort else [] := ⟨_, rfl⟩
  obtain ⟨n, hndef⟩ : ∃ n, n = portRead p mode a := ⟨_, rfl⟩
  have hnum : ∀ p' : Parser, p'.config.flags .addressLookup = p.config.flags .addressLookup →
      p'.config.protocol = p.config.protocol → Parser.Numeric p' := by
    intro p' h1 h2
    have := hp.protocol
    simp only [List.mem_cons, List.not_mem_nil, or_false] at this
    exact ⟨by rw [h1]; exact hp.lookup, by rw [h2]; exact this⟩
  have hd : ∀ c ∈ q, c ∈ digitChars := by
    rw [hqdef]
    split
    · exact dec_digits _
    · exact fun c h => nomatch h
  have hport : a.getPort ≤ 65535 := by
    have := (swap16 a.address.port).isLt
    rw [Addr.getPort]
    omega
  have hn : n ≤ 65535 := by
    rw [hndef, portRead]
    by_cases hpp : PrintsPort mode
    · rw [if_pos hpp]; exact hport
    · rw [if_neg hpp]
      rcases (hp.noPort hpp).2 with h1 | ⟨h1, h2, _⟩
      · rw [if_pos h1]; omega
      · rw [if_neg (by omega)]; omega
  have hqb : (decide (q ≠ [])) = decide (PrintsPort mode) := by
    rw [hqdef]
    by_cases hpp : PrintsPort mode
    · rw [if_pos hpp, decide_eq_true hpp, decide_eq_true]
      exact Nat.toDigits_ne_nil
    · rw [if_neg hpp, decide_eq_false hpp]
      rfl
  have hq : ∀ c : Config, c.flags .port = p.config.flags .port → c.flags .requiredPort = p.config.flags .requiredPort →
      c.defaultPort = p.config.defaultPort → PortGiven env c q n := by
    intro c h1 h2 h3
    rw [PortGiven, h1, h2, h3, hqdef, hndef, portRead]
    by_cases hpp : PrintsPort mode
    · rw [if_pos hpp, if_pos hpp]
      exact .inl ⟨Nat.toDigits_ne_nil, hp.numbers _ hport, hp.port hpp⟩
    · rw [if_neg hpp, if_neg hpp]
      refine .inr ⟨rfl, (hp.noPort hpp).1, ?_⟩
      rcases (hp.noPort hpp).2 with h1 | ⟨h1, h2, h3⟩
      · rw [if_pos h1]; exact .inl ⟨h1, rfl⟩
      · rw [if_neg (by omega), intStr_nonneg h1, decStr_dec]
        exact .inr ⟨by omega, Nat.toDigits_ne_nil, hp.numbers _ (by omega), h3⟩
  refine ⟨q, n, hqdef, hndef, hnum, hd, hn, hqb, hq, ?_⟩
  intro r t b hr
  rw [Addr.getPort, hr.address]
  dsimp only
  rw [swap16_swap16, BitVec.toNat_ofNat]
  omega

/-- C44: the text of an address of which the mask is a number of bits, with or without port, mask and brackets, is read back
by a parser which allows its syntax: no error, one range, the same address, the same port and mask where they are printed,
the default ones otherwise. -/
theorem C44_print_parse_partial (env : ParseEnv) (db : NetDb) (p : Parser) (mode : BitVec 32) (a : Addr) (k : Nat)
    (hm : PlainMode mode) (hma : mode &&& STRING_IP_MASK_AS_ADDRESS = 0) (h : ip a.getMask = prefixMask k) (hk : k ≤ 128)
    (hv : isV4 (ip a.getIpv6.addr) → 96 ≤ k) (hp : Allows env p mode a) :
    ∃ s r, a.toIpv4or6String db mode = .ok s ∧ parse env s p = (p, .ok [r])
      ∧ r.hasFrom = true ∧ r.hasTo = false ∧ ip r.lo.getIpv6.addr = ip a.getIpv6.addr
      ∧ r.lo.getPort = portRead p mode a
      ∧ r.lo.portDefined = decide (PrintsPort mode)
      ∧ ip r.lo.getMask = (if PrintsMask mode a then ip a.getMask else 2 ^ 128 - 1) := by
  obtain ⟨e, t, he, ht, hc, hcolon, htext⟩ := printed_text_bits db hm hma h hk hv
  obtain ⟨q, n, hqdef, hndef, hnum, hd, hn, hqb, hq, hportOf⟩ := allows_given hp
  rw [← hqdef] at he
  by_cases hpm : PrintsMask mode a
  · rw [if_pos hpm] at htext
    obtain ⟨g1, g2, g3, g4, g5, g6⟩ := forbidMask_agree p
    have hpn : Parser.Numeric (forbidMask p) := hnum _ (g5 _ (by decide)) rfl
    have hcm : NoComments (forbidMask p) :=
      ⟨by rw [g5 _ (by decide)]; exact hp.comments.1, by rw [g5 _ (by decide)]; exact hp.comments.2⟩
    obtain ⟨r, hr, hf⟩ := parse_printed (env := env) (p := forbidMask p) he hpn ht hc hd hn
      (hq _ (g5 _ (by decide)) (g5 _ (by decide)) rfl) hcm (by rw [Unsorted, g6]; exact hp.sort) (.inl g2)
    have hpn' : Parser.Numeric p := hnum p rfl rfl
    obtain ⟨ha, h1⟩ := written_entry (p := p) he ht.nonempty hc hd (hq p.config rfl rfl rfl).ok hp.comments
    obtain ⟨_, _, _, _, hasv⟩ := parseAddress_printed he hpn' ht hc hd hn (hq p.config rfl rfl rfl) []
    have hbits : maskBits p e r = if isV4 (ip a.getIpv6.addr) then 32 else 128 := by
      have hb : r.lo.isIpv4 = true ↔ isV4 (ip a.getIpv6.addr) := by
        rw [isIpv4_iff, Addr.bytes, hf.address]
      rw [maskBits]
      by_cases h4 : isV4 (ip a.getIpv6.addr)
      · rw [if_pos h4, if_pos ⟨(asIpv4_iff p e).1 (hasv.2 (hcolon.2 h4)), hb.2 h4⟩]
      · rw [if_neg h4, if_neg fun h' => h4 (hb.1 h'.2)]
    have hval : ∀ m, Nat.ofDigitChars 10 (dec m) 0 = m := fun m => by simp [dec, Nat.ofDigitChars_ten_toDigits]
    have hdig : ∀ c ∈ digitChars, c.isDigit = true := by decide
    have h40 := (C40_decimal_mask env p e (dec (if isV4 (ip a.getIpv6.addr) then k - 96 else k)) [r] (hp.mask hpm) ha h1
      hp.sort Nat.toDigits_ne_nil (fun c hc => hdig c (dec_digits _ c hc)) hr).2 (by
        intro r' hr'
        rw [List.mem_singleton.1 hr', hbits, hval]
        split <;> omega)
    obtain ⟨l', hl', hall⟩ := h40
    cases hall with
    | cons hx hnil =>
      cases hnil
      rename_i r'
      obtain ⟨x1, x2, x3, x4, x5, x6⟩ := hx
      refine ⟨_, r', htext, hl', x1.trans hf.hasFrom, x2.trans hf.hasTo, ?_, ?_, ?_, ?_⟩
      · rw [Addr.getIpv6, x4.address, hf.address]
      · have := hportOf r t _ hf
        rw [Addr.getPort] at this
        rw [Addr.getPort, x4.address, this, hndef]
      · rw [x4.portDefined, hf.portDefined, hqb]
      · rw [if_pos hpm, x6, hbits, hval, h]
        split
        · rename_i h4
          have := hv h4
          congr 1; omega
        · congr 1; omega
  · rw [if_neg hpm] at htext
    have hpn : Parser.Numeric p := hnum p rfl rfl
    obtain ⟨r, hr, hf⟩ := parse_printed (env := env) he hpn ht hc hd hn (hq p.config rfl rfl rfl) hp.comments hp.sort
      (hp.noMask hpm)
    refine ⟨e, r, htext, hr, hf.hasFrom, hf.hasTo, ?_, ?_, ?_, ?_⟩
    · rw [Addr.getIpv6, hf.address]
    · rw [hportOf r t _ hf, hndef]
    · rw [hf.portDefined, hqb]
    · rw [if_neg hpm, Addr.getMask, hf.mask]
      decide

/-- The name service reads the numeric addresses. -/
structure ReadsNumeric (env : ParseEnv) : Prop where
  v4 : ∀ (m : Bytes4) (service : Str) (protocol : Int), ∃ pr sa l,
    env.getaddrinfo (ntop4 m) service true protocol = .list (.inet sizeofIn pr sa :: l) ∧ sa.addr = m
  v6 : ∀ (m : Bytes16) (service : Str) (protocol : Int), ∃ pr sa l,
    env.getaddrinfo (ntop6 m) service true protocol = .list (.inet6 sizeofIn6 pr sa :: l) ∧ sa.addr = m

theorem scanDigits_alien (limit : Nat) (x : Char) (hx : decVal x = none) : ∀ (s t : Str) (acc : Nat),
    s.length ≤ 3 → (∀ c ∈ s, ∃ d, decVal c = some d ∧ d ≤ 9) → (acc + 1) * 10 ^ s.length ≤ limit + 1 →
    scanDigits limit (s ++ x :: t) acc = .notNumber
  | [], t, acc, _, _, _ => by rw [List.nil_append, scanDigits, hx]
  | c :: s, t, acc, hl, h, hb => by
    obtain ⟨d, hd, hd9⟩ := h c List.mem_cons_self
    rw [List.cons_append, scanDigits, hd]
    simp only [List.length_cons, Nat.pow_succ] at hb hl
    have hpos : 1 ≤ 10 ^ s.length := Nat.pow_pos (by omega)
    have h1 : (acc * 10 + d + 1) * 10 ^ s.length ≤ limit + 1 := by
      refine Nat.le_trans (Nat.mul_le_mul_right _ (show acc * 10 + d + 1 ≤ (acc + 1) * 10 by omega)) ?_
      rw [Nat.mul_assoc, Nat.mul_comm 10]
      exact hb
    have h2 : acc * 10 + d + 1 ≤ (acc * 10 + d + 1) * 10 ^ s.length := Nat.le_mul_of_pos_right _ hpos
    dsimp only
    rw [if_neg (by omega)]
    exact scanDigits_alien limit x hx s t _ (by omega) (fun c hc => h c (List.mem_cons_of_mem _ hc)) h1

/-- The mask of an IPv4 address, of which only four bytes are written. -/
def mask4 (m : Bytes4) : Bytes16 :=
  #v[255, 255, 255, 255, 255, 255, 255, 255, 255, 255, 255, 255, m[0], m[1], m[2], m[3]]

/-- A mask compatible with IPv4 is given by its last four bytes. -/
theorem compatible_eq {m : Bytes16} (h : ip m / 2 ^ 32 = 2 ^ 96 - 1) : mask4 (last4 m) = m := by
  obtain ⟨b0, b1, b2, b3, b4, b5, b6, b7, b8, b9, b10, b11, b12, b13, b14, b15, hb⟩ := bytes16_cases m
  subst hb
  have hs := (value_split [b0, b1, b2, b3, b4, b5, b6, b7, b8, b9, b10, b11] [b12, b13, b14, b15]).1
  have hi : ip #v[b0, b1, b2, b3, b4, b5, b6, b7, b8, b9, b10, b11, b12, b13, b14, b15] / 2 ^ 32
      = value [b0, b1, b2, b3, b4, b5, b6, b7, b8, b9, b10, b11] := by
    rw [show (2 : Nat) ^ 32 = 256 ^ 4 by decide]
    exact hs
  rw [hi, show 2 ^ 96 - 1 = value (List.replicate 12 255) by decide] at h
  have := value_inj (by simp) h
  simp only [List.replicate, List.cons.injEq, and_true] at this
  obtain ⟨rfl, rfl, rfl, rfl, rfl, rfl, rfl, rfl, rfl, rfl, rfl, rfl⟩ := this
  rfl

theorem ntop4_notNumber (b : Bytes4) : scanDigits 10000 (cstr (ntop4 b)) 0 = .notNumber := by
  have hc : ∀ c ∈ ntop4 b, c ∈ addressChars := fun c hc =>
    (by decide : ∀ c ∈ "0123456789.".toList, c ∈ addressChars) c (ntop4_chars _ c hc)
  rw [cstr_chars hc]
  have hl := decStr_length (byte_le b[0])
  have e : ntop4 b = decStr b[0].toNat ++ '.' :: (decStr b[1].toNat ++ '.' :: (decStr b[2].toNat ++ '.' :: decStr b[3].toNat)) := by
    simp [ntop4]
  rw [e]
  refine scanDigits_alien 10000 '.' (by decide) _ _ _ hl ?_ ?_
  · intro c hc
    have : ∀ c ∈ digitChars, decVal c = some (c.toNat - 48) ∧ c.toNat - 48 ≤ 9 := by decide
    exact ⟨_, this c (decStr_chars _ c hc)⟩
  · have : 10 ^ (decStr b[0].toNat).length ≤ 10 ^ 3 := Nat.pow_le_pow_right (by omega) hl
    omega

theorem parseMask_v4 {env : ParseEnv} {p : Parser} (henv : ReadsNumeric env) (hf : p.config.flags .addressMask = true)
    (m : Bytes4) (a : Addr) :
    parseMask env (ntop4 m) a true p = (p, .ok { a with maskDefined := true, mask := mask4 m }) := by
  have hc : ∀ c ∈ ntop4 m, c ∈ addressChars := fun c hc =>
    (by decide : ∀ c ∈ "0123456789.".toList, c ∈ addressChars) c (ntop4_chars _ c hc)
  have hne : ntop4 m ≠ [] := by
    intro h0
    have := pton4_ntop4 m
    rw [h0] at this
    exact absurd this (by simp [pton4, pton4Loop])
  obtain ⟨pr, sa, l, h1, h2⟩ := henv.v4 m (decStr a.getPort) (hintProtocol a.protocol)
  have hadd : addressMask env (ntop4 m) a true p
      = (p, .ok (some (mask4 m))) := by
    rw [addressMask, PM.config_bind, hf]
    have hh : (ntop4 m).head? ≠ some '[' := fun h => absurd (hc _ (List.mem_of_head? h)) (by decide)
    simp only [Bool.not_true, Bool.false_eq_true, if_false, Bool.true_and, decide_eq_true_eq, hh, Bool.false_and, if_true,
      cstr_chars hc, h1, ne_eq, not_true_eq_false, h2]
    rfl
  rw [parseMask, if_neg hne, ntop4_notNumber]
  simp only [PM.bind_def, hadd]
  rfl

theorem parseMask_v6 {env : ParseEnv} {p : Parser} (henv : ReadsNumeric env) (hf : p.config.flags .addressMask = true)
    (m : Bytes16) (a : Addr) :
    parseMask env ('[' :: ntop6 m ++ [']']) a false p = (p, .ok { a with maskDefined := true, mask := m }) := by
  have hc : ∀ c ∈ ntop6 m, c ∈ addressChars := ntop6_chars m
  have hne : ntop6 m ≠ [] := fun h => by
    have := colon_mem_ntop6 m
    rw [h] at this
    cases this
  obtain ⟨pr, sa, l, h1, h2⟩ := henv.v6 m (decStr a.getPort) (hintProtocol a.protocol)
  have hadd : addressMask env ('[' :: ntop6 m ++ [']']) a false p = (p, .ok (some m)) := by
    rw [addressMask, PM.config_bind, hf]
    have hh : ('[' :: ntop6 m ++ [']']).head? = some '[' := rfl
    have hl : ('[' :: ntop6 m ++ [']']).getLast? = some ']' := by rw [List.getLast?_append]; rfl
    have hd : (('[' :: ntop6 m ++ [']']).drop 1).dropLast = ntop6 m := by simp
    simp only [Bool.not_true, Bool.false_eq_true, if_false, Bool.false_and, Bool.not_false, Bool.true_and, hh, hl, ne_eq,
      not_true_eq_false, decide_false, hd, hne, cstr_chars hc, h1, h2]
    rfl
  rw [parseMask, if_neg (by simp)]
  have : scanDigits 10000 (cstr ('[' :: ntop6 m ++ [']'])) 0 = .notNumber := by
    have : cstr ('[' :: ntop6 m ++ [']']) = '[' :: cstr (ntop6 m ++ [']']) := by simp [cstr]
    rw [this]
    rfl
  rw [this]
  simp only [PM.bind_def, hadd]
  rfl

/-- C44 for the other masks: where the mask is printed as an address, which for an IPv6 address has to be within brackets,
the text is read back by a parser which allows such masks, the name service reading numeric addresses. -/
theorem C44_print_parse_mask_address (env : ParseEnv) (db : NetDb) (p : Parser) (mode : BitVec 32) (a : Addr)
    (hm : PlainMode mode) (hpm : PrintsMask mode a)
    (hma : mode &&& STRING_IP_MASK_AS_ADDRESS ≠ 0 ∨ ∀ k, k ≤ 128 → ip a.getMask ≠ prefixMask k)
    (h4 : isV4 (ip a.getIpv6.addr) → ip a.getMask / 2 ^ 32 = 2 ^ 96 - 1)
    (h6 : ¬ isV4 (ip a.getIpv6.addr) → mode &&& (STRING_IP_BRACKET_ADDRESS ||| STRING_IP_BRACKET_MASK ||| STRING_IP_PORT) ≠ 0)
    (hp : Allows env p mode a) (hpa : p.config.flags .addressMask = true) (henv : ReadsNumeric env) :
    ∃ s r, a.toIpv4or6String db mode = .ok s ∧ parse env s p = (p, .ok [r])
      ∧ r.hasFrom = true ∧ r.hasTo = false ∧ ip r.lo.getIpv6.addr = ip a.getIpv6.addr ∧ r.lo.getPort = portRead p mode a
      ∧ r.lo.portDefined = decide (PrintsPort mode) ∧ ip r.lo.getMask = ip a.getMask := by
  obtain ⟨e, t, he, ht, hc, hcolon, htext⟩ := printed_text_mask db hm hpm hma h4
  obtain ⟨q, n, hqdef, hndef, hnum, hd, hn, hqb, hq, hportOf⟩ := allows_given hp
  rw [← hqdef] at he
  have hpn : Parser.Numeric p := hnum p rfl rfl
  obtain ⟨ha, h1⟩ := written_entry (p := p) he ht.nonempty hc hd (hq p.config rfl rfl rfl).ok hp.comments
  obtain ⟨m, hmdef⟩ : ∃ m, m = if isV4 (ip a.getIpv6.addr) then ntop4 (last4 a.mask)
    else Addr.bracketed (Addr.includeBrackets mode) (ntop6 a.mask) := ⟨_, rfl⟩
  rw [← hmdef] at htext
  have hbr : ¬ isV4 (ip a.getIpv6.addr) → m = '[' :: ntop6 a.mask ++ [']'] := by
    intro h
    have : Addr.includeBrackets mode = true := by
      rw [Addr.includeBrackets, anyOf_iff, and_or_zero hm.portName]
      exact h6 h
    rw [hmdef, if_neg h, Addr.bracketed, this, if_pos rfl]
  have hmc : ∀ c ∈ m, c ∈ "0123456789abcdef:.[]".toList := by
    by_cases hv : isV4 (ip a.getIpv6.addr)
    · rw [hmdef, if_pos hv]
      exact fun c hc => (by decide : ∀ c ∈ "0123456789.".toList, c ∈ "0123456789abcdef:.[]".toList) c (ntop4_chars _ c hc)
    · rw [hbr hv]
      intro c hc
      simp only [List.cons_append, List.mem_cons, List.mem_append, List.not_mem_nil, or_false] at hc
      rcases hc with rfl | hc | rfl
      · decide
      · exact (by decide : ∀ c ∈ "0123456789abcdef:.".toList, c ∈ "0123456789abcdef:.[]".toList) c (ntop6_chars _ c hc)
      · decide
  have hm0 : m ≠ [] := by
    by_cases hv : isV4 (ip a.getIpv6.addr)
    · rw [hmdef, if_pos hv]
      intro h0
      have := pton4_ntop4 (last4 a.mask)
      rw [h0] at this
      exact absurd this (by simp [pton4, pton4Loop])
    · rw [hbr hv]; simp
  obtain ⟨_, r, hr, hf, hasv⟩ := parseAddress_printed he hpn ht hc hd hn (hq p.config rfl rfl rfl) m
  have hb : r.lo.isIpv4 = true ↔ isV4 (ip a.getIpv6.addr) := by
    rw [isIpv4_iff, Addr.bytes, hf.address]
  have hpmask : parseMask env m r.lo (asIpv4 p.config e && r.lo.isIpv4) p
      = (p, .ok { r.lo with maskDefined := true, mask := a.mask }) := by
    by_cases hv : isV4 (ip a.getIpv6.addr)
    · rw [hasv.2 (hcolon.2 hv), hb.2 hv, Bool.true_and, hmdef, if_pos hv, parseMask_v4 henv hpa]
      congr 3
      exact compatible_eq (h4 hv)
    · have : r.lo.isIpv4 = false := by
        rw [← Bool.not_eq_true, hb]; exact hv
      rw [this, Bool.and_false, hbr hv, parseMask_v6 henv hpa]
  have h2 : OneEntry p (e ++ '/' :: m) := by
    refine ⟨by simp, ?_, h1.comments⟩
    intro x hx
    rcases List.mem_append.1 hx with hx | hx
    · exact h1.separator x hx
    · have hxx : x = '/' ∨ x ∈ "0123456789abcdef:.[]".toList := by
        rcases List.mem_cons.1 hx with rfl | hx
        · exact Or.inl rfl
        · exact Or.inr (hmc x hx)
      cases hb : separates p x with
      | false => rfl
      | true =>
        simp only [separates, Bool.or_eq_true, Bool.and_eq_true, beq_iff_eq] at hb
        rcases hb with (⟨_, rfl⟩ | ⟨_, rfl⟩) | ⟨_, rfl⟩ <;> exact absurd hxx (by decide)
  have hcut := cut_slash (t := m) ha fun x hx =>
    (by decide : ∀ c ∈ "0123456789abcdef:.[]".toList, isSpace c = false) x (hmc x (List.mem_of_getLast? hx))
  have hloop : maskLoop env m (asIpv4 p.config e) [r] p = (p, .ok [{ r with lo := { r.lo with maskDefined := true, mask := a.mask } }]) := by
    rw [maskLoop, PM.config_bind, chooseMask, if_pos hm0]
    simp only [PM.bind_def, hpmask]
    rfl
  refine ⟨_, { r with lo := { r.lo with maskDefined := true, mask := a.mask } }, htext, ?_, hf.hasFrom, hf.hasTo, ?_, ?_, ?_, rfl⟩
  · rw [parse_one_unsorted env _ p h2 hp.sort, Parser.parseCidr_mask env _ [] p (hp.mask hpm), hcut]
    simp only [Option.getD_some, hr, hloop, if_true, List.nil_append]
  · show ip r.lo.address.addr = _
    rw [hf.address]
  · exact (hportOf r t _ hf).trans hndef
  · exact hf.portDefined.trans hqb

/-! ### The hypotheses can be met -/

/-- `sampleConvert()` reads the decimal numbers. -/
theorem sampleConvert_dec (n : Nat) : sampleConvert (dec n) = some (n : Int) := by
  have hdig : ∀ c ∈ digitChars, c.isDigit = true := by decide
  have hall : (dec n).all Char.isDigit = true := List.all_eq_true.2 fun c hc => hdig c (dec_digits n c hc)
  have key : ∀ (t : Str) (k : Nat), (∀ c ∈ t, c ∈ digitChars) →
      t.foldl (fun (n : Int) (c : Char) => n * 10 + (c.toNat - 48)) (k : Int) = (Nat.ofDigitChars 10 t k : Int) := by
    intro t
    induction t with
    | nil => intro k _; rfl
    | cons c t ih =>
      intro k h
      have h48 : ∀ c ∈ digitChars, 48 ≤ c.toNat := by decide
      have hc := h48 c (h c List.mem_cons_self)
      rw [List.foldl_cons, Nat.ofDigitChars_cons, ← ih _ fun c hc => h c (List.mem_cons_of_mem _ hc)]
      congr 1
      have : '0'.toNat = 48 := by decide
      omega
  rw [sampleConvert, if_pos ⟨Nat.toDigits_ne_nil, hall⟩]
  have := key (dec n) 0 (dec_digits n)
  rw [show Nat.ofDigitChars 10 (dec n) 0 = n by simp [dec, Nat.ofDigitChars_ten_toDigits]] at this
  exact congrArg some this

/-- A name service which knows the numeric addresses only. -/
def numericEnv : ParseEnv :=
  { sampleEnv with
    getaddrinfo := fun host _ _ protocol =>
      match pton4 host with
      | some b => .list [.inet sizeofIn protocol { family := AF_INET, port := 0, addr := b, zero := Vector.replicate 8 0 }]
      | none =>
        match pton6 host with
        | some b => .list [.inet6 sizeofIn6 protocol { family := AF_INET6, port := 0, flowinfo := 0, scope := 0, addr := b }]
        | none => .error (-2) 0 }

theorem numericEnv_reads : ReadsNumeric numericEnv := by
  constructor
  · intro m s pr
    refine ⟨pr, { family := AF_INET, port := 0, addr := m, zero := Vector.replicate 8 0 }, [], ?_, rfl⟩
    show (match pton4 (ntop4 m) with
      | some b => _
      | none => _) = _
    rw [pton4_ntop4]
  · intro m s pr
    refine ⟨pr, { family := AF_INET6, port := 0, flowinfo := 0, scope := 0, addr := m }, [], ?_, rfl⟩
    show (match pton4 (ntop6 m) with
      | some b => _
      | none => _) = _
    rw [pton4_colon (colon_mem_ntop6 m)]
    show (match pton6 (ntop6 m) with
      | some b => _
      | none => _) = _
    rw [pton6_ntop6]

/-- Ports and masks of any form allowed, no lookup. -/
def printParser : Parser :=
  ParserOp.runAll [(sampleEnv, .setAllow 7 true), (sampleEnv, .setAllow 9 true), (sampleEnv, .setAllow 10 true)] sampleParser

theorem printParser_allows (mode : BitVec 32) (a : Addr) : Allows numericEnv printParser mode a where
  lookup := by decide
  protocol := by decide
  comments := ⟨by decide, by decide⟩
  sort := by unfold Unsorted; decide
  numbers n _ := sampleConvert_dec n
  port _ := .inl (by decide)
  noPort _ := ⟨by decide, .inl (by decide)⟩
  mask _ := by decide
  noMask _ := .inr ⟨by decide, by decide⟩

/-- C44 in the mode `STRING_IP_ALL` for the parser above: address, port and mask survive. -/
theorem C44_all_mode (db : NetDb) (a : Addr) (k : Nat) (h : ip a.getMask = prefixMask k) (hk : k ≤ 128)
    (hv : isV4 (ip a.getIpv6.addr) → 96 ≤ k) :
    ∃ s r, a.toIpv4or6String db STRING_IP_ALL = .ok s ∧ parse numericEnv s printParser = (printParser, .ok [r])
      ∧ ip r.lo.getIpv6.addr = ip a.getIpv6.addr ∧ r.lo.getPort = a.getPort ∧ ip r.lo.getMask = ip a.getMask := by
  obtain ⟨s, r, h1, h2, _, _, h3, h4, _, h5⟩ := C44_print_parse_partial numericEnv db printParser STRING_IP_ALL a k
    ⟨by decide, by decide, by decide, by decide⟩ (by decide) h hk hv (printParser_allows _ _)
  refine ⟨s, r, h1, h2, h3, h4, ?_⟩
  rw [h5, if_pos]
  exact ⟨by decide, .inl (by decide)⟩

/-- C44, as stated: whatever the mode and the mask. -/
def C44_claim : Prop :=
  ∀ (env : ParseEnv) (db : NetDb) (p : Parser) (mode : BitVec 32) (a : Addr) (s : Str), PlainMode mode → Allows env p mode a →
    p.config.flags .addressMask = true → ReadsNumeric env → a.toIpv4or6String db mode = .ok s →
    ∃ r, parse env s p = (p, .ok [r]) ∧ ip r.lo.getIpv6.addr = ip a.getIpv6.addr
      ∧ r.lo.getPort = portRead p mode a ∧ ip r.lo.getMask = (if PrintsMask mode a then ip a.getMask else 2 ^ 128 - 1)

/-- An IPv6 address of which the mask is not a number of bits. -/
def oddMask : Addr := { sampleAddr (Vector.replicate 16 1) with mask := Vector.replicate 16 0x80 }

/-- C44 is false as stated: without brackets the mask of an IPv6 address which is not a number of bits is printed as
"/8080:...", which the parser refuses. -/
theorem C44_claim_fails : ¬ C44_claim := by
  intro h
  obtain ⟨r, h1, _⟩ := h numericEnv sampleDb printParser (STRING_IP_ADDRESS ||| STRING_IP_MASK) oddMask
    "101:101:101:101:101:101:101:101/8080:8080:8080:8080:8080:8080:8080:8080".toList
    ⟨by decide, by decide, by decide, by decide⟩ (printParser_allows _ _) (by decide) numericEnv_reads (by decide +kernel)
  have h2 : maskSizes (parse numericEnv "101:101:101:101:101:101:101:101/8080:8080:8080:8080:8080:8080:8080:8080".toList
    printParser).2 = some [] := by decide +kernel
  rw [h1] at h2
  cases h2

/-- Within brackets it is read. -/
example : Addr.toIpv4or6String sampleDb STRING_IP_ALL oddMask
      = .ok "[101:101:101:101:101:101:101:101]:0/[8080:8080:8080:8080:8080:8080:8080:8080]".toList
    ∧ maskSizes (parse numericEnv "[101:101:101:101:101:101:101:101]:0/[8080:8080:8080:8080:8080:8080:8080:8080]".toList
      printParser).2 = some [-1] := by decide +kernel

example : PrintsMask STRING_IP_ALL oddMask ∧ ¬ isV4 (ip oddMask.getIpv6.addr)
    ∧ STRING_IP_ALL &&& (STRING_IP_BRACKET_ADDRESS ||| STRING_IP_BRACKET_MASK ||| STRING_IP_PORT) ≠ 0
    ∧ ∀ k, k ≤ 128 → ip oddMask.getMask ≠ prefixMask k := by
  refine ⟨by decide +kernel, by decide +kernel, by decide, ?_⟩
  rcases getMaskSize_cases oddMask with ⟨_, h⟩ | ⟨k, hk, _, h⟩
  · exact h
  · have : oddMask.getMaskSize = -1 := by decide +kernel
    omega

/-- IPv4 with a port and a mask; IPv6 without port, in the mode where the mask is printed if needed. -/
example : Addr.toIpv4or6String sampleDb STRING_IP_ALL (((sampleV4 10 1 2 3).setMaskCount 120).1.setPort 8080).1
      = .ok "10.1.2.3:8080/24".toList
    ∧ maskSizes (parse numericEnv "10.1.2.3:8080/24".toList printParser).2 = some [120]
    ∧ Addr.toIpv4or6String sampleDb (STRING_IP_ADDRESS ||| STRING_IP_MASK_IF_NEEDED) (sampleAddr (Vector.replicate 16 1))
      = .ok "101:101:101:101:101:101:101:101".toList
    ∧ maskSizes (parse numericEnv "101:101:101:101:101:101:101:101".toList printParser).2 = some [128] := by decide +kernel

end Verif
