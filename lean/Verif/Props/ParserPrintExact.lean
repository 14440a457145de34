import Verif.Lemmas.MaskText
import Verif.Props.ParserPrint

/-!
# Property C44: exactly which printed addresses parse back

`C44_refused` says what becomes of the texts which `C44_claim_fails` is about and `C44_exact` that there are no others.
-/

namespace Verif

open Spec Inet Parser

/-- The mask of an IPv6 address is printed as an address and not within brackets. -/
def BareMask (mode : BitVec 32) (a : Addr) : Prop :=
  ¬ isV4 (ip a.getIpv6.addr) ∧ PrintsMask mode a
    ∧ (mode &&& STRING_IP_MASK_AS_ADDRESS ≠ 0 ∨ ∀ k, k ≤ 128 → ip a.getMask ≠ prefixMask k)
    ∧ mode &&& (STRING_IP_BRACKET_ADDRESS ||| STRING_IP_BRACKET_MASK ||| STRING_IP_PORT) = 0

theorem parseMask_bare (env : ParseEnv) (m : Bytes16) (a : Addr) (p : Parser) :
    ∃ msg, parseMask env (ntop6 m) a false p = (emitAll [msg] p, .ok a) := by
  have hc : ∀ c ∈ ntop6 m, c ∈ addressChars := ntop6_chars m
  have hcol := colon_mem_ntop6 m
  have hne : ntop6 m ≠ [] := fun h => by rw [h] at hcol; cases hcol
  have hh : (ntop6 m).head? ≠ some '[' := fun h => absurd (hc _ (List.mem_of_head? h)) (by decide)
  have hnd : ¬ ∀ c ∈ ntop6 m, c.isDigit = true := fun h => absurd (h _ hcol) (by decide)
  cases hf : p.config.flags .addressMask with
  | false => exact parseMask_refuses env hne (fun h => absurd (hc _ h) (by decide)) a false p hf fun h => hnd h.1
  | true =>
    rw [parseMask, if_neg hne, cstr_chars hc]
    cases hs : scanDigits 10000 (ntop6 m) 0 with
    | number n => exact absurd (scanDigits_number hs) hnd
    | tooLarge =>
      refine ⟨"Mask size too large (".toList ++ ntop6 m ++ ", expected a maximum of 128).".toList, ?_⟩
      dsimp only
      rw [PM.bind_of_ok (emitError_apply _ p)]
      rfl
    | notNumber =>
      refine ⟨"The address uses the IPv6 syntax, the mask cannot use IPv4.".toList, ?_⟩
      dsimp only
      rw [PM.bind_of_ok (a := none)
        (p' := emitAll ["The address uses the IPv6 syntax, the mask cannot use IPv4.".toList] p)]
      · rfl
      · rw [addressMask, PM.config_bind, hf]
        simp only [Bool.not_true, Bool.false_eq_true, if_false, Bool.false_and, Bool.not_false, Bool.true_and, ne_eq, hh,
          not_false_eq_true, decide_true, if_true]
        rw [PM.bind_of_ok (emitError_apply _ p)]
        rfl

/-- C44, the texts which are not read back: a mask of an IPv6 address printed as an address and not within brackets is
refused, with one error and no result, whatever the parser allows. -/
theorem C44_refused (env : ParseEnv) (db : NetDb) (p : Parser) (mode : BitVec 32) (a : Addr) (hm : PlainMode mode)
    (hb : BareMask mode a) (hp : Allows env p mode a) :
    ∃ s msg, a.toIpv4or6String db mode = .ok s ∧ parse env s p = (emitAll [msg] p, .ok []) := by
  obtain ⟨hv, hpm, hma, hbr⟩ := hb
  obtain ⟨e, t, he, ht, hc, hcolon, htext⟩ := printed_text_mask db hm hpm hma fun h => absurd h hv
  obtain ⟨q, n, hqdef, hndef, hnum, hd, hn, hqb, hq, hportOf⟩ := allows_given hp
  rw [← hqdef] at he
  have hpn : Parser.Numeric p := hnum p rfl rfl
  obtain ⟨ha, h1⟩ := written_entry (p := p) he ht.nonempty hc hd (hq p.config rfl rfl rfl).ok hp.comments
  have hib : Addr.includeBrackets mode = false := by
    rw [Addr.includeBrackets, anyOf_false, and_or_zero hm.portName]
    exact hbr
  rw [if_neg hv, hib, Addr.bracketed, if_neg Bool.false_ne_true] at htext
  have hmc : ∀ c ∈ ntop6 a.mask, c ∈ "0123456789abcdef:.".toList := ntop6_chars _
  have hm0 : ntop6 a.mask ≠ [] := fun h => by
    have := colon_mem_ntop6 a.mask
    rw [h] at this
    cases this
  obtain ⟨_, r, hr, hf, hasv⟩ := parseAddress_printed he hpn ht hc hd hn (hq p.config rfl rfl rfl) (ntop6 a.mask)
  have h6 : r.lo.isIpv4 = false := by
    rw [← Bool.not_eq_true, isIpv4_iff, Addr.bytes, hf.address]; exact hv
  obtain ⟨msg, hmsg⟩ := parseMask_bare env a.mask r.lo p
  have h2 : OneEntry p (e ++ '/' :: ntop6 a.mask) := by
    refine ⟨by simp, ?_, h1.comments⟩
    intro x hx
    rcases List.mem_append.1 hx with hx | hx
    · exact h1.separator x hx
    · have hxx : x = '/' ∨ x ∈ "0123456789abcdef:.".toList := by
        rcases List.mem_cons.1 hx with rfl | hx
        · exact Or.inl rfl
        · exact Or.inr (hmc x hx)
      cases hb : separates p x with
      | false => rfl
      | true =>
        simp only [separates, Bool.or_eq_true, Bool.and_eq_true, beq_iff_eq] at hb
        rcases hb with (⟨_, rfl⟩ | ⟨_, rfl⟩) | ⟨_, rfl⟩ <;> exact absurd hxx (by decide)
  have hcut := cut_slash (t := ntop6 a.mask) ha fun x hx =>
    (by decide : ∀ c ∈ "0123456789abcdef:.".toList, isSpace c = false) x (hmc x (List.mem_of_getLast? hx))
  have hloop : maskLoop env (ntop6 a.mask) (asIpv4 p.config e) [r] p = (emitAll [msg] p, .ok [r]) := by
    rw [maskLoop, PM.config_bind, chooseMask, if_pos hm0, h6, Bool.and_false]
    simp only [PM.bind_def, hmsg]
    rfl
  refine ⟨_, msg, htext, ?_⟩
  rw [parse_one_unsorted env _ p h2 hp.sort, Parser.parseCidr_mask env _ [] p (hp.mask hpm), hcut]
  simp only [Option.getD_some, hr, hloop]
  rw [if_neg]
  simp only [emitAll, List.length_singleton]
  omega

/-- The range read is the address printed. -/
structure ReadsBack (p : Parser) (mode : BitVec 32) (a : Addr) (r : Range) : Prop where
  from_ : r.hasFrom = true
  to_ : r.hasTo = false
  address : ip r.lo.getIpv6.addr = ip a.getIpv6.addr
  port : r.lo.getPort = portRead p mode a
  portDefined : r.lo.portDefined = decide (PrintsPort mode)
  mask : ip r.lo.getMask = (if PrintsMask mode a then ip a.getMask else 2 ^ 128 - 1)

/-- C44 exactly: a text which was printed is read back, without error and as one range with the same address, port and
mask, if and only if it does not have the mask of an IPv6 address as an address without brackets. -/
theorem C44_exact (env : ParseEnv) (db : NetDb) (p : Parser) (mode : BitVec 32) (a : Addr) (s : Str) (hm : PlainMode mode)
    (hp : Allows env p mode a) (hpa : p.config.flags .addressMask = true) (henv : ReadsNumeric env)
    (hs : a.toIpv4or6String db mode = .ok s) :
    (∃ r, parse env s p = (p, .ok [r]) ∧ ReadsBack p mode a r) ↔ ¬ BareMask mode a := by
  constructor
  · rintro ⟨r, hr, _⟩ hb
    obtain ⟨s', msg, h1, h2⟩ := C44_refused env db p mode a hm hb hp
    rw [hs] at h1
    rw [← Res.ok.inj h1, hr] at h2
    cases (Prod.mk.inj h2).2
  · intro hb
    have h4 : PrintsMask mode a → isV4 (ip a.getIpv6.addr) → ip a.getMask / 2 ^ 32 = 2 ^ 96 - 1 := by
      intro hpm hv
      apply Classical.byContradiction
      intro hn
      have := (C57_throws_iff db mode a .unexpectedMask).2 ⟨rfl, hv, fun h => absurd h.1 (by
        rw [(anyOf_false _ _).2 hm.portName]; decide), (wantsMask_iff mode a).2 hpm, hn⟩
      rw [hs] at this
      cases this
    by_cases hpm : PrintsMask mode a
    · by_cases hma : mode &&& STRING_IP_MASK_AS_ADDRESS ≠ 0 ∨ ∀ k, k ≤ 128 → ip a.getMask ≠ prefixMask k
      · obtain ⟨s', r, h1, h2, h3, h5, h6, h7, h8, h9⟩ := C44_print_parse_mask_address env db p mode a hm hpm hma (h4 hpm)
          (fun hv h0 => hb ⟨hv, hpm, hma, h0⟩) hp hpa henv
        rw [hs] at h1
        rw [← Res.ok.inj h1] at h2
        exact ⟨r, h2, h3, h5, h6, h7, h8, by rw [if_pos hpm]; exact h9⟩
      · have hma0 : mode &&& STRING_IP_MASK_AS_ADDRESS = 0 := Classical.byContradiction fun h => hma (.inl h)
        rcases getMaskSize_cases a with ⟨_, h⟩ | ⟨k, hk, h, _⟩
        · exact absurd (.inr h) hma
        · have h96 : isV4 (ip a.getIpv6.addr) → 96 ≤ k := by
            intro hv
            have h4 := h4 hpm hv
            rw [show ip a.getMask = prefixMask k from h, prefixMask] at h4
            apply Classical.byContradiction
            intro hlt
            have e1 : (2 : Nat) ^ 33 ≤ 2 ^ (128 - k) := Nat.pow_le_pow_right (by omega) (by omega)
            have e2 : (2 : Nat) ^ (128 - k) ≤ 2 ^ 128 := Nat.pow_le_pow_right (by omega) (by omega)
            omega
          obtain ⟨s', r, h1, h2, h3, h5, h6, h7, h8, h9⟩ := C44_print_parse_partial env db p mode a k hm hma0 h hk h96 hp
          rw [hs] at h1
          rw [← Res.ok.inj h1] at h2
          exact ⟨r, h2, h3, h5, h6, h7, h8, h9⟩
    · obtain ⟨e, t, he, ht, hc, hcolon, g5, g6⟩ := printed_text db (a := a) hm
      obtain ⟨q, n, hqdef, hndef, hnum, hd, hn, hqb, hq, hportOf⟩ := allows_given hp
      rw [← hqdef] at he
      have hw : ¬ a.wantsMask mode = true := fun h => hpm ((wantsMask_iff mode a).1 h)
      have htext : a.toIpv4or6String db mode = .ok e := by
        by_cases hv : isV4 (ip a.getIpv6.addr)
        · have := g5 hv [] (by rw [Addr.maskPart4, if_neg hw])
          rwa [List.append_nil] at this
        · rw [g6 hv, Addr.maskPart6, if_neg hw, List.append_nil]
      rw [hs] at htext
      rw [Res.ok.inj htext]
      obtain ⟨r, hr, hf⟩ := parse_printed (env := env) he (hnum p rfl rfl) ht hc hd hn (hq p.config rfl rfl rfl) hp.comments
        hp.sort (hp.noMask hpm)
      refine ⟨r, hr, hf.hasFrom, hf.hasTo, ?_, ?_, ?_, ?_⟩
      · rw [Addr.getIpv6, hf.address]
      · rw [hportOf r t _ hf, hndef]
      · rw [hf.portDefined, hqb]
      · rw [if_neg hpm, Addr.getMask, hf.mask]
        decide

/-- Both sides occur: "mask as address" without brackets is refused even for a number of bits, and read with them. -/
example : BareMask (STRING_IP_ADDRESS ||| STRING_IP_MASK_AS_ADDRESS) (sampleAddr (Vector.replicate 16 1))
    ∧ ¬ BareMask (STRING_IP_BRACKET_ADDRESS ||| STRING_IP_MASK_AS_ADDRESS) (sampleAddr (Vector.replicate 16 1))
    ∧ PlainMode (STRING_IP_ADDRESS ||| STRING_IP_MASK_AS_ADDRESS)
    ∧ Allows numericEnv printParser (STRING_IP_ADDRESS ||| STRING_IP_MASK_AS_ADDRESS) (sampleAddr (Vector.replicate 16 1))
    ∧ printParser.config.flags .addressMask = true ∧ ReadsNumeric numericEnv := by
  refine ⟨⟨by decide +kernel, by decide +kernel, .inl (by decide), by decide⟩, fun h => absurd h.2.2.2 (by decide),
    ⟨by decide, by decide, by decide, by decide⟩, printParser_allows _ _, by decide, numericEnv_reads⟩

end Verif
