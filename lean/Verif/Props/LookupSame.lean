import Verif.Props.LookupLanguage
import Verif.SpecValidator
import Verif.Props.AddrText
import Verif.Props.ParserPrint

/-!
# Property C144: numeric addresses are read alike with and without lookups
-/

namespace Verif

open Spec

/-- The parser after `set_allow(ALLOW_ADDRESS_LOOKUP, true)`. -/
def withLookups (env : ParseEnv) (p : Parser) : Parser := ParserOp.runAll [(env, .setAllow 5 true)] p

/-- Two ranges of one address: the same address, port, mask and host name, and a port which is defined in both or in none. -/
structure SameAddress (r r' : Range) : Prop where
  one : r.hasFrom = true ∧ r.hasTo = false ∧ r'.hasFrom = true ∧ r'.hasTo = false
  address : r'.lo.getIpv6.addr = r.lo.getIpv6.addr
  port : r'.lo.getPort = r.lo.getPort
  mask : r'.lo.getMask = r.lo.getMask
  hostname : r'.lo.hostname = r.lo.hostname
  portDefined : r'.lo.portDefined = r.lo.portDefined

theorem withLookups_eq (env : ParseEnv) (p : Parser) :
    withLookups env p = { p with config := Parser.setFlag p.config .addressLookup true } := rfl

theorem withLookups_flag (env : ParseEnv) (p : Parser) (f : Allow) (h : f ≠ .addressLookup) :
    (withLookups env p).config.flags f = p.config.flags f := by
  rw [withLookups_eq]
  exact if_neg h

theorem withLookups_looksUp {env : ParseEnv} {p : Parser} {inp : Str} (h : ReadsOne p inp) : LooksUp (withLookups env p) inp where
  lookup := rfl
  mask := by rw [withLookups_flag _ _ _ (by decide)]; exact h.mask
  range := by rw [withLookups_flag _ _ _ (by decide)]; exact h.range
  one := ⟨h.one.nonempty, fun x hx => by
    have := h.one.separator x hx
    rw [separates] at this ⊢
    rw [withLookups_flag _ _ _ (by decide), withLookups_flag _ _ _ (by decide), withLookups_flag _ _ _ (by decide)]
    exact this, by
      obtain ⟨h1, h2⟩ := h.one.comments
      exact ⟨by rw [withLookups_flag _ _ _ (by decide)]; exact h1, by rw [withLookups_flag _ _ _ (by decide)]; exact h2⟩⟩
  sort := h.sort

theorem address_head {u : Str} {n : Nat} (h : AddressOf u n) : u.head? ≠ some '[' := by
  intro e
  cases u with
  | nil => cases e
  | cons c u =>
    cases e
    exact absurd (Parser.address_chars h '[' List.mem_cons_self) (by decide)

theorem entry_asks {p : Parser} {ports : Prop} {t u q : Str} {n : Nat} (hp : ports → PortsAllowed p) (he : Entry ports t u q)
    (hu : AddressOf u n) : Asks p t u q := by
  have h1 := Parser.address_ne hu
  have h2 := address_head hu
  have h3 : ']' ∉ u := fun h => absurd (Parser.address_chars hu _ h) (by decide)
  cases he with
  | bare4 h => exact .name h1 h h2
  | port4 h hq h4 => exact .port h1 h h2 hq (.inl (hp h4))
  | bare6 h => exact .six h h2
  | bracket => exact .bracket h1 h3
  | port6 h4 => exact .bracketPort h1 h3 (hp h4)

/-- The service asked for is the port which is read without lookups. -/
theorem service_port {env : ParseEnv} {p : Parser} {q : Str} {port : Nat} (hn : ReadsNumbers env)
    (hd : -1 ≤ p.config.defaultPort ∧ p.config.defaultPort ≤ 65535) (hq : PortOf env p.config q port) (hw : q = [] ∨ q = dec port) :
    serviceAsked (withLookups env p) q = dec port := by
  have e : (withLookups env p).config.defaultPort = p.config.defaultPort := rfl
  rw [serviceAsked, e]
  obtain ⟨_, h2⟩ := hq
  rcases hw with rfl | hw
  · rw [if_neg (by simp)] at h2 ⊢
    obtain ⟨_, h2⟩ := h2
    by_cases h1 : p.config.defaultPort = -1
    · rw [if_pos h1] at h2 ⊢
      subst h2
      decide
    · rw [if_neg h1] at h2 ⊢
      obtain ⟨k, hk⟩ := Int.eq_ofNat_of_zero_le (show 0 ≤ p.config.defaultPort by omega)
      have e2 : intStr p.config.defaultPort = dec k := by rw [hk, intStr_nonneg (Int.natCast_nonneg k)]; exact decStr_dec k
      have h3 := hn k (by omega)
      rw [e2, h3] at h2
      have h4 : (k : Int) = port := by injection h2.2
      rw [e2, Int.ofNat.inj h4]
  · rw [if_pos (by rw [hw]; exact dec_ne_nil port), hw, cstr_dec]

/-! ### C144 -/

/-- C144: a numeric address, alone or with a port in decimal, is read with lookups as it is read without: the same address, port, mask
and host name and no error; once when the protocol is TCP or UDP, and three times otherwise. -/
theorem C144_numeric (env : ParseEnv) (p : Parser) (inp t u q : Str) (n port : Nat) (henv : NumericService env) (hn : ReadsNumbers env)
    (h : ReadsOne p inp) (hd : -1 ≤ p.config.defaultPort ∧ p.config.defaultPort ≤ 65535) (ht : Trims inp t)
    (he : Entry (PortsAllowed p) t u q) (ha : AddressOf u n) (hq : PortOf env p.config q port) (hw : q = [] ∨ q = dec port) :
    ∃ r rs, Parser.parse env inp p = (p, .ok [r])
      ∧ Parser.parse env inp (withLookups env p) = (withLookups env p, .ok rs)
      ∧ Each (fun protocol r' => SameAddress r r' ∧ r'.lo.protocol = protocol)
          (if p.config.protocol = 6 ∨ p.config.protocol = 17 then [p.config.protocol] else [6, 17, 0]) rs := by
  obtain ⟨r, h1, r1, r2, r3, r4, r5, r6, r7⟩ := C79_accepted env p inp t u q n port h ht he ha hq
  have hreq : (withLookups env p).config.flags .requiredPort = false ∨ q ≠ [] := by
    rw [withLookups_flag _ _ _ (by decide)]
    by_cases hq0 : q ≠ []
    · exact .inr hq0
    · have := hq.2
      rw [if_neg hq0] at this
      exact .inl this.1
  have hp : PortsAllowed p → PortsAllowed (withLookups env p) := by
    intro hp
    unfold PortsAllowed at hp ⊢
    rw [withLookups_flag _ _ _ (by decide), withLookups_flag _ _ _ (by decide)]
    exact hp
  obtain ⟨rs, g1, g2⟩ := C92_numeric env (withLookups env p) inp t u q n port henv (withLookups_looksUp h) ht (entry_asks hp he ha) hreq ha
    hq.1 (service_port hn hd hq hw)
  refine ⟨r, rs, h1, g1, ?_⟩
  refine Parser.each_mono (fun x r' hr => ?_) g2
  obtain ⟨s1, s2, s3, s4, s5, s6, s7, s8⟩ := hr
  exact ⟨⟨⟨r1, r2, s1, s2⟩, ip_inj (s3.trans r3.symm), s4.trans r4.symm, ip_inj (s5.trans r5.symm), s6.trans r6.symm,
    Bool.eq_iff_iff.2 (s7.trans r7.symm)⟩, s8⟩

/-- C144: with the protocol TCP or UDP, one address is read, the same. -/
theorem C144_partial (env : ParseEnv) (p : Parser) (inp t u q : Str) (n port : Nat) (henv : NumericService env) (hn : ReadsNumbers env)
    (h : ReadsOne p inp) (hp : p.config.protocol = 6 ∨ p.config.protocol = 17)
    (hd : -1 ≤ p.config.defaultPort ∧ p.config.defaultPort ≤ 65535) (ht : Trims inp t)
    (he : Entry (PortsAllowed p) t u q) (ha : AddressOf u n) (hq : PortOf env p.config q port) (hw : q = [] ∨ q = dec port) :
    ∃ r r', Parser.parse env inp p = (p, .ok [r])
      ∧ Parser.parse env inp (withLookups env p) = (withLookups env p, .ok [r']) ∧ SameAddress r r' := by
  obtain ⟨r, rs, h1, h2, h3⟩ := C144_numeric env p inp t u q n port henv hn h hd ht he ha hq hw
  rw [if_pos hp] at h3
  cases h3 with
  | cons a h3 =>
    cases h3
    exact ⟨r, _, h1, h2, a.1⟩

/-- C144, as stated: whatever the protocol, and however the port is written. -/
def C144_claim : Prop :=
  ∀ (env : ParseEnv) (p : Parser) (inp : Str) (r : Range), NumericService env → ReadsNumbers env → ReadsOne p inp →
    Parser.parse env inp p = (p, .ok [r]) →
    ∃ r', Parser.parse env inp (withLookups env p) = (withLookups env p, .ok [r']) ∧ SameAddress r r'

theorem serviceEnv_numbers : ReadsNumbers serviceEnv := fun n _ => sampleConvert_dec n

theorem sampleParser_readsOne (inp : Str) (h : inp ≠ []) : ReadsOne sampleParser inp where
  lookup := by decide
  mask := by decide
  range := .inl (by decide)
  protocol := .inl (by decide)
  one := ⟨h, fun x _ => by
    rw [separates, show sampleParser.config.flags .multiAddressesCommas = false by decide,
      show sampleParser.config.flags .multiAddressesSpaces = false by decide,
      show sampleParser.config.flags .multiAddressesNewlines = false by decide]
    rfl, ⟨by decide, by decide⟩⟩
  sort := by unfold Unsorted; decide

theorem ten_address : AddressOf "10.0.0.1".toList 0xFFFF0A000001 :=
  .inl ⟨0x0A000001, by decide, by decide, by decide⟩

/-- C144 is false as stated: an address without a protocol is one address without lookups and three with them. -/
theorem C144_claim_fails : ¬ C144_claim := by
  intro h
  have ho := sampleParser_readsOne "10.0.0.1:80".toList (by decide)
  obtain ⟨r, rs, h1, h2, h3⟩ := C144_numeric serviceEnv sampleParser "10.0.0.1:80".toList "10.0.0.1:80".toList "10.0.0.1".toList "80".toList _ 80
    serviceEnv_numeric serviceEnv_numbers ho (by decide) (trims_self (by decide) (by decide))
    (.port4 (u := "10.0.0.1".toList) (by decide) (by decide) (.inl (by decide))) ten_address
    ⟨by decide, by rw [if_pos (by decide)]; exact ⟨.inl (by decide), by decide⟩⟩ (.inr (by decide))
  obtain ⟨r', h4, _⟩ := h serviceEnv sampleParser _ r serviceEnv_numeric serviceEnv_numbers ho h1
  rw [h2] at h4
  cases h4
  rw [if_neg (by decide)] at h3
  cases h3 with
  | cons _ h3 => cases h3

/-- A parser without lookups, for TCP, with a default port. -/
def tcpParser : Parser := ParserOp.runAll [(sampleEnv, .setProtocol 6), (sampleEnv, .setDefaultPort 443)] sampleParser

-- C144_partial: the default port and the protocol TCP.
example : ∃ r r', Parser.parse serviceEnv "10.0.0.1".toList tcpParser = (tcpParser, .ok [r])
    ∧ Parser.parse serviceEnv "10.0.0.1".toList (withLookups serviceEnv tcpParser) = (withLookups serviceEnv tcpParser, .ok [r'])
    ∧ SameAddress r r' := by
  have h := sampleParser_readsOne "10.0.0.1".toList (by decide)
  exact C144_partial serviceEnv tcpParser _ "10.0.0.1".toList "10.0.0.1".toList [] _ 443 serviceEnv_numeric serviceEnv_numbers
    ⟨h.lookup, h.mask, h.range, .inr (.inr (.inl (by decide))), ⟨h.one.1, h.one.2, ⟨h.one.3.1, h.one.3.2⟩⟩, h.sort⟩ (.inl (by decide)) (by decide)
    (trims_self (by decide) (by decide)) (.bare4 (by decide)) ten_address
    ⟨by decide, by rw [if_neg (by decide)]; exact ⟨by decide, by rw [if_neg (by decide)]; exact ⟨by decide, by decide⟩⟩⟩ (.inl rfl)

end Verif
