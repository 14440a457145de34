import Verif.Props.RangePrint

/-!
# Property C105: a list which was read is written and read again
-/

namespace Verif

open Spec Inet

/-- Addresses, followed by their mask when it is not made of ones. -/
def listMode : BitVec 32 := STRING_IP_ADDRESS ||| STRING_IP_MASK_IF_NEEDED

/-- The ranges which are read in lists of networks and ranges: a network, or a range which has a last address, without a mask. -/
def Configured (r : Range) : Prop := (∃ n k, IsNetwork r n k) ∨ (r.hasTo = true ∧ ip r.hi.getMask = 2 ^ 128 - 1)

/-- A network of IPv6 addresses written with an IPv4 address. -/
def TooWide (r : Range) : Prop := ∃ n k, IsNetwork r n k ∧ isV4 n ∧ k < 96

theorem isNetwork_inj {r : Range} {n n' k k' : Nat} (h : IsNetwork r n k) (h' : IsNetwork r n' k') : n = n' ∧ k = k' := by
  obtain ⟨_, _, h1, h2, h3⟩ := h
  obtain ⟨_, _, h4, h5, h6⟩ := h'
  exact ⟨h1.symm.trans h4, prefixMask_inj h2 h5 (h3.symm.trans h6)⟩

theorem listMode_wants (a : Addr) : a.wantsMask listMode = (a.getMaskSize != 128) := by
  have f1 : anyOf listMode (STRING_IP_MASK ||| STRING_IP_BRACKET_MASK ||| STRING_IP_MASK_AS_ADDRESS ||| STRING_IP_MASK_IF_NEEDED) = true := by decide
  have f2 : anyOf listMode STRING_IP_MASK_IF_NEEDED = true := by decide
  simp [Addr.wantsMask, f1, f2]

/-- The text of an address, followed by its mask. -/
theorem listMode_text (db : NetDb) (a : Addr) :
    a.toIpv4or6String db listMode = a.toIpv4or6String db STRING_IP_ADDRESS >>= fun s =>
      if a.isIpv4 then a.maskPart4 listMode >>= fun z => .ok (s ++ z) else .ok (s ++ a.maskPart6 listMode false) := by
  have f1 : anyOf listMode (STRING_IP_ADDRESS ||| STRING_IP_BRACKET_ADDRESS) = true := by decide
  have f2 : anyOf listMode (STRING_IP_PORT ||| STRING_IP_PORT_NAME) = false := by decide
  have f3 : anyOf listMode STRING_IP_DEFAULT_AS_ASTERISK = false := by decide
  have f4 : anyOf listMode STRING_IP_DEFAULT_AS_IPV4 = false := by decide
  have f5 : Addr.includeBrackets listMode = false := by decide
  by_cases h : a.isIpv4 = true
  · simp only [Addr.toIpv4or6String, h, if_true, toIpv4String_address, Res.bind_ok]
    simp only [Addr.toIpv4String, Addr.addressPart4, Addr.portPart, f1, f2, f3, h, if_true, Bool.false_and, Bool.false_eq_true, if_false, Res.bind_ok,
      List.append_nil, last4]
  · have h' : a.isIpv4 = false := Bool.not_eq_true _ ▸ h
    simp only [Addr.toIpv4or6String, h', Bool.false_eq_true, if_false, toIpv6String_address, Res.bind_ok]
    simp only [Addr.toIpv6String, Addr.addressPart6, Addr.portPart, f1, f2, f3, f4, f5, if_true, Bool.false_eq_true, if_false, Res.bind_ok, List.append_nil,
      Addr.bracketed]
    cases a.isDefault <;> rfl

theorem dec_digit {n : Nat} : ∀ c ∈ dec n, c.isDigit = true := fun _ hc => Nat.isDigit_of_mem_toDigits (by decide) (by decide) hc

/-- An address whose mask is made of ones is printed without it. -/
theorem listMode_whole (db : NetDb) (a : Addr) (h : ip a.getMask = 2 ^ 128 - 1) :
    a.toIpv4or6String db listMode = a.toIpv4or6String db STRING_IP_ADDRESS := by
  have hsize : a.getMaskSize = 128 := getMaskSize_prefix (k := 128) (by rw [h]; decide) (by decide)
  have hw : a.wantsMask listMode = false := by rw [listMode_wants, hsize]; rfl
  obtain ⟨s, h1, _⟩ := printed_address db a
  rw [listMode_text, h1, Res.bind_ok, Addr.maskPart4, Addr.maskPart6, hw]
  simp

/-- An address whose mask is a number of bits. -/
theorem listMode_network (db : NetDb) (a : Addr) (k : Nat) (hk : k ≤ 128) (hm : ip a.getMask = prefixMask k)
    (h4 : isV4 (ip a.getIpv6.addr) → 96 ≤ k) : ∃ s, a.toIpv4or6String db listMode = .ok s ∧ Network s (ip a.getIpv6.addr) k := by
  have hsize := getMaskSize_prefix hm hk
  by_cases h128 : k = 128
  · obtain ⟨s, h1, h2⟩ := printed_address db a
    exact ⟨s, by rw [listMode_whole db a (by rw [hm, h128]; decide), h1], by rw [h128]; exact .host h2⟩
  · have hw : a.wantsMask listMode = true := by
      rw [listMode_wants, hsize]
      exact bne_iff_ne.2 (by omega)
    have hslash : Addr.maskSlash listMode = ['/'] := by decide
    have hbits : a.maskBits listMode = (k : Int) := by rw [Addr.maskBits, if_neg (by decide), hsize]
    by_cases h : isV4 (ip a.getIpv6.addr)
    · have h96 := h4 h
      have hcompat : a.isMaskIpv4Compatible = true := by
        rw [maskCompatible_iff, hm, prefixMask]
        have h1 : 2 ^ (128 - k) ≤ 2 ^ 32 := Nat.pow_le_pow_right (by omega) (by omega)
        have h2 : 0 < 2 ^ (128 - k) := Nat.pow_pos (by omega)
        omega
      have hv := (isIpv4_iff a).2 h
      obtain ⟨s, h1, h2, _⟩ := C21_ipv4_text db a h
      have he : a.toIpv4or6String db STRING_IP_ADDRESS = .ok s := by rw [Addr.toIpv4or6String, if_pos hv, h1]
      refine ⟨s ++ '/' :: dec (k - 96), ?_, ?_⟩
      · rw [listMode_text, he, Res.bind_ok, if_pos hv, Addr.maskPart4, if_pos hw, if_pos hcompat, hslash, hbits]
        dsimp only
        rw [if_neg (by omega), intStr_nonneg (by omega), decStr_dec, show ((k : Int) - 96).toNat = k - 96 by omega]
        rfl
      · have hval : Nat.ofDigitChars 10 (dec (k - 96)) 0 = k - 96 := Nat.ofDigitChars_ten_toDigits
        have := Network.v4 (v := ip a.getIpv6.addr % 2 ^ 32) (s := dec (k - 96)) (Nat.mod_lt _ (by decide)) Nat.toDigits_ne_nil dec_digit (by omega)
        rw [hval, ← h2, show 96 + (k - 96) = k by omega] at this
        rw [isV4_iff_div] at h
        rwa [show 0xFFFF00000000 + ip a.getIpv6.addr % 2 ^ 32 = ip a.getIpv6.addr by omega] at this
    · have hv : ¬ a.isIpv4 = true := fun h' => h ((isIpv4_iff a).1 h')
      obtain ⟨s, h1, _, h2⟩ := C22_ipv6_text db a h
      have he : a.toIpv4or6String db STRING_IP_ADDRESS = .ok s := by rw [Addr.toIpv4or6String, if_neg hv, h1]
      refine ⟨s ++ '/' :: dec k, ?_, ?_⟩
      · rw [listMode_text, he, Res.bind_ok, if_neg hv, Addr.maskPart6, if_pos hw, hslash, hbits]
        dsimp only
        rw [if_neg (by omega), intStr_nonneg (by omega), decStr_dec, show ((k : Int)).toNat = k by omega]
        rfl
      · have hval : Nat.ofDigitChars 10 (dec k) 0 = k := Nat.ofDigitChars_ten_toDigits
        have := Network.v6 (u := s) (s := dec k) (ip_lt _) ((Inet.pton6_iff _ _).1 h2) Nat.toDigits_ne_nil dec_digit (by omega)
        rwa [hval] at this

/-- C105: what is printed for a network or a range is one of the texts of lists, and stands for the same addresses. -/
theorem C105_text (db : NetDb) (r : Range) (hc : Configured r) (hw : ¬ TooWide r) (he : first r ≤ last r) :
    ∃ s S, r.toStr db listMode = .ok s ∧ Listed s S ∧ ∀ a : Addr, r.matchAddr a = .ok true ↔ S (ip a.getIpv6.addr) := by
  have hd : Defined r := hc.elim (fun ⟨_, _, h⟩ => .inl h.1) fun h => .inr h.1
  have hempty : r.isEmpty = false := by
    rw [← Bool.not_eq_true, isEmpty_first_last hd]
    omega
  have hmode : listMode &&& (STRING_IP_ADDRESS ||| STRING_IP_BRACKET_ADDRESS) = STRING_IP_ADDRESS := by decide
  rcases hc with ⟨n, k, hn⟩ | ⟨ht, hm⟩
  · obtain ⟨h1, h2, rfl, h4, h5⟩ := hn
    obtain ⟨s, j1, j2⟩ := listMode_network db r.lo k h4 h5 (fun h => Nat.le_of_not_lt fun h' => hw ⟨_, k, ⟨h1, h2, rfl, h4, h5⟩, h, h'⟩)
    refine ⟨s, _, ?_, .network j2, fun a => network_match ⟨h1, h2, rfl, h4, h5⟩ a⟩
    rw [Range.toStr, hempty, h1, h2]
    exact j1
  · have hadd : HasAddresses r := ⟨hd, fun h => by
      rw [first_of_complete h, last_of_complete h] at he
      exact he⟩
    obtain ⟨s, j1, j2⟩ := C87_text db r hadd
    have hmode' : STRING_IP_ADDRESS &&& (STRING_IP_ADDRESS ||| STRING_IP_BRACKET_ADDRESS) = STRING_IP_ADDRESS := by decide
    refine ⟨s, _, ?_, .range (written_bare j2 _) j2, fun a => boundsOf_match r hd ⟨fun _ h => ?_, fun _ _ => hm⟩ a⟩
    · rw [← j1, Range.toStr, Range.toStr, hmode, hmode', listMode_whole db r.hi hm, ht, hempty]
      cases r.hasFrom <;> rfl
    · exact absurd (h.symm.trans ht) Bool.false_ne_true

/-- C105: an IPv6 network written with an IPv4 address cannot be printed. -/
theorem C105_throws (db : NetDb) (r : Range) (hw : TooWide r) : r.toStr db listMode = .throw .unexpectedMask := by
  obtain ⟨n, k, ⟨h1, h2, rfl, h4, h5⟩, h6, h7⟩ := hw
  have hsize := getMaskSize_prefix h5 h4
  have hv := (isIpv4_iff r.lo).2 h6
  have hwants : r.lo.wantsMask listMode = true := by
    rw [listMode_wants, hsize]
    exact bne_iff_ne.2 (by omega)
  have hcompat : ¬ r.lo.isMaskIpv4Compatible = true := by
    rw [maskCompatible_iff, h5, prefixMask]
    have h1 : 2 ^ 33 ≤ 2 ^ (128 - k) := Nat.pow_le_pow_right (by omega) (by omega)
    have h2 : 2 ^ (128 - k) ≤ 2 ^ 128 := Nat.pow_le_pow_right (by omega) (by omega)
    omega
  obtain ⟨s, j1, _⟩ := printed_address db r.lo
  have : r.lo.toIpv4or6String db listMode = .throw .unexpectedMask := by
    rw [listMode_text, j1, Res.bind_ok, if_pos hv, Addr.maskPart4, if_pos hwants, if_neg hcompat]
    rfl
  have hempty : r.isEmpty = false := by simp [Range.isEmpty, Range.isRange, h2]
  rw [Range.toStr, hempty, h1, h2]
  exact this

/-- C105: a list of networks and ranges which are not empty is written as a text which the parser reads without an error as a list which the same
addresses match. -/
theorem C105_saved (env : ParseEnv) (db : NetDb) (p : Parser) (l : List Range) (hl : ∀ r ∈ l, Configured r ∧ ¬ TooWide r ∧ first r ≤ last r)
    (hp : ReadsAccess p) (hcomma : p.config.flags .multiAddressesCommas = true) (hmerge : p.config.sort &&& SORT_MERGE = 0) :
    ∃ s l', Range.toStrAll db listMode ",".toList l true = .ok s ∧ (Parser.parse env s p).2 = .ok l'
      ∧ (Parser.parse env s p).1.getErrorCount = p.getErrorCount ∧ (Parser.parse env s p).1.errorMessages = p.errorMessages
      ∧ ∀ a : Addr, addressMatchRanges l' a = addressMatchRanges l a := by
  have htexts : ∃ ts : List Str, List.Forall₂ (fun r t => r.toStr db listMode = .ok t
      ∧ ∃ S, Listed t S ∧ ∀ a : Addr, r.matchAddr a = .ok true ↔ S (ip a.getIpv6.addr)) l ts := by
    induction l with
    | nil => exact ⟨[], .nil⟩
    | cons r l ih =>
      obtain ⟨ts, h1⟩ := ih fun r hr => hl r (List.mem_cons_of_mem _ hr)
      obtain ⟨g1, g2, g3⟩ := hl r List.mem_cons_self
      obtain ⟨t, S, h2, h3⟩ := C105_text db r g1 g2 g3
      exact ⟨t :: ts, .cons ⟨h2, S, h3⟩ h1⟩
  obtain ⟨ts, hts⟩ := htexts
  have h1 := Ostream.toStrAll_of (db := db) ",".toList (hts.imp fun _ _ h => h.1) true
  rw [if_pos rfl] at h1
  have hleft := forall2_left hts
  have hright := forall2_right hts
  have hsep : ∀ t ∈ ts, ∀ x ∈ t, separates p x = false := by
    intro t ht
    obtain ⟨r, _, _, S, hS, _⟩ := hright t ht
    exact listed_separates hS p
  have hfields : ∀ e, e ≠ [] → (e ∈ fields (separates p) (",".toList.intercalate ts) ↔ e ∈ ts) := by
    intro e he
    by_cases h0 : ts = []
    · subst h0
      have : fields (separates p) (",".toList.intercalate []) = [[]] := rfl
      rw [this, List.mem_singleton]
      simp [he]
    · have := fields_intercalate (separates p) ',' (by rw [separates, hcomma]; rfl) ts hsep h0
      rw [show ",".toList = [','] from rfl, this]
  obtain ⟨l', j1, j2, j2', j3⟩ := C86_list env p (",".toList.intercalate ts) hp hmerge (fun e he hne => by
    obtain ⟨r, _, _, S, hS, _⟩ := hright e ((hfields e hne).1 he)
    exact ⟨e, _, listed_trims hS, hS⟩)
  refine ⟨_, l', h1, j1, j2, j2', fun a => ?_⟩
  obtain ⟨b, k1, k2⟩ := j3 a
  obtain ⟨b', k3, k4⟩ := C35_any_range l a
  rw [k1, k3]
  refine congrArg Res.ok (Bool.eq_iff_iff.2 (k2.trans (Iff.trans ?_ k4.symm)))
  constructor
  · rintro ⟨e, he, t, S, g1, g2, g3⟩
    have hne : e ≠ [] := by
      rintro rfl
      have := trims_eq g1
      exact listed_ne g2 this.symm
    obtain ⟨r, hr, _, S', hS', hm⟩ := hright e ((hfields e hne).1 he)
    have het : e = t := (trims_eq (listed_trims hS')).symm.trans (trims_eq g1)
    subst het
    exact ⟨r, hr, (hm a).2 ((C86_unambiguous e S _ g2 hS' _ (ip_lt _)).1 g3)⟩
  · rintro ⟨r, hr, hm⟩
    obtain ⟨t, ht, _, S, hS, hm'⟩ := hleft r hr
    exact ⟨t, (hfields t (listed_ne hS)).2 ht, t, S, listed_trims hS, hS, (hm' a).1 hm⟩

/-! ### From one text to the other -/

/-- What is read of an entry. -/
def ReadAs (p : Parser) (t : Str) (r : Range) : Prop :=
  (∃ n k, Network t n k ∧ IsNetwork r n k)
    ∨ ∃ u lo hi, Entry False t u [] ∧ WrittenRange u lo hi ∧ BoundIs r.hasFrom r.lo 0 false lo ∧ BoundIs r.hasTo r.hi 0 false hi
      ∧ ¬ (p.config.sort &&& SORT_NO_EMPTY ≠ 0 ∧ NoneBetween lo hi)

theorem parseEach_readAs {env : ParseEnv} {p : Parser} (h : ReadsAccess p) (hs : Unsorted p) (es : List Str)
    (he : ∀ e ∈ es, OneEntry p e ∧ ∃ t S, Trims e t ∧ Listed t S) :
    ∃ l, parseEach env es p = (p, .ok l) ∧ (∀ r ∈ l, ∃ e ∈ es, ∃ t, Trims e t ∧ ReadAs p t r)
      ∧ ∀ e ∈ es, ∀ t n k, Trims e t → Network t n k → ∃ r ∈ l, IsNetwork r n k := by
  induction es with
  | nil => exact ⟨[], rfl, (fun _ h => nomatch h), (fun _ h => nomatch h)⟩
  | cons e es ih =>
    obtain ⟨l, h1, h2, h3⟩ := ih fun e' he' => he e' (List.mem_cons_of_mem _ he')
    obtain ⟨g1, t, S, g3, g4⟩ := he e List.mem_cons_self
    have key : ∃ l', Parser.parse env e p = (p, .ok l') ∧ ∀ r ∈ l', ReadAs p t r := by
      cases g4 with
      | network hn =>
        obtain ⟨r, h1, h2⟩ := parse_network (env := env) h.toReadsNetworks hs g1.nonempty g1.separator g3 hn
        refine ⟨[r], h1, fun r' hr' => ?_⟩
        rw [List.mem_singleton] at hr'
        rw [hr']
        exact .inl ⟨_, _, hn, h2⟩
      | range he hr =>
        obtain ⟨l', j1, _, j2⟩ := parse_range_bounds (env := env) h hs g1 g3 he hr
        exact ⟨l', j1, fun r hr' => .inr ⟨_, _, _, he, hr, j2 r hr'⟩⟩
    obtain ⟨l', j1, j2⟩ := key
    refine ⟨l' ++ l, by simp only [parseEach, j1, h1], ?_, ?_⟩
    · intro r hr
      rcases List.mem_append.1 hr with hr | hr
      · exact ⟨e, List.mem_cons_self, t, g3, j2 r hr⟩
      · obtain ⟨e', k1, k2⟩ := h2 r hr
        exact ⟨e', List.mem_cons_of_mem _ k1, k2⟩
    · intro e' he' t' n k k1 k2
      rcases List.mem_cons.1 he' with rfl | he'
      · obtain ⟨r, k3, k4⟩ := parse_network (env := env) h.toReadsNetworks hs g1.nonempty g1.separator k1 k2
        rw [j1] at k3
        injection k3 with _ k3
        injection k3 with k3
        exact ⟨r, List.mem_append.2 (.inl (by rw [k3]; exact List.mem_singleton.2 rfl)), k4⟩
      · obtain ⟨r, k3, k4⟩ := h3 e' he' t' n k k1 k2
        exact ⟨r, List.mem_append.2 (.inr k3), k4⟩

theorem readAs_configured {p : Parser} {t : Str} {r : Range} (h : ReadAs p t r) :
    Configured r ∧ (p.config.sort &&& SORT_NO_EMPTY ≠ 0 → first r ≤ last r) ∧ (TooWide r → ∃ n k, Network t n k ∧ isV4 n ∧ k < 96) := by
  have hnet : ∀ {n k}, IsNetwork r n k → first r ≤ last r := fun h => by
    rw [first, last, if_pos h.1, if_neg (by rw [h.2.1]; exact Bool.false_ne_true)]
  rcases h with ⟨n, k, h1, h2⟩ | ⟨u, lo, hi, he, hr, b1, b2, hno⟩
  · refine ⟨.inl ⟨n, k, h2⟩, fun _ => hnet h2, fun ⟨n', k', j1, j2, j3⟩ => ?_⟩
    obtain ⟨rfl, rfl⟩ := isNetwork_inj h2 j1
    exact ⟨_, _, h1, j2, j3⟩
  · cases hi with
    | none =>
      cases lo with
      | none => exact absurd rfl ((written_some hr).elim id id)
      | some n =>
        have b2 : r.hasTo = false := b2
        have hn : IsNetwork r n 128 := ⟨b1.1, b2, b1.2.1, by decide, by rw [b1.2.2.2.2]; decide⟩
        refine ⟨.inl ⟨n, 128, hn⟩, fun _ => hnet hn, fun ⟨n', k', j1, j2, j3⟩ => ?_⟩
        obtain ⟨rfl, rfl⟩ := isNetwork_inj hn j1
        omega
    | some m =>
      refine ⟨.inr ⟨b2.1, b2.2.2.2.2⟩, fun hs => ?_, fun ⟨n', k', j1, _, _⟩ => absurd (j1.2.1.symm.trans b2.1) Bool.false_ne_true⟩
      cases lo with
      | none =>
        have b1 : r.hasFrom = false := b1
        rw [first, last, if_neg (by rw [b1]; exact Bool.false_ne_true), if_pos b2.1]
      | some n =>
        have h1 : ip r.lo.getIpv6.addr = n := b1.2.1
        have h2 : ip r.hi.getIpv6.addr = m := b2.2.1
        rw [first, last, if_pos b1.1, if_pos b2.1]
        show ip r.lo.getIpv6.addr ≤ ip r.hi.getIpv6.addr
        rw [h1, h2]
        exact Nat.le_of_not_lt fun h => hno ⟨hs, n, m, rfl, rfl, h⟩

/-- A network of IPv6 addresses, with an IPv4 address and less than 96 bits, is written in this list. -/
def WritesTooWide (p : Parser) (inp : Str) : Prop :=
  ∃ e ∈ fields (separates p) inp, ∃ t n k, Trims e t ∧ Network t n k ∧ isV4 n ∧ k < 96

theorem toStrAll_throws {db : NetDb} {mode : BitVec 32} {sep : Str} {e : Exc} (l : List Range) (first : Bool)
    (h : ∀ r ∈ l, (∃ s, r.toStr db mode = .ok s) ∨ r.toStr db mode = .throw e) (hr : ∃ r ∈ l, r.toStr db mode = .throw e) :
    Range.toStrAll db mode sep l first = .throw e := by
  induction l generalizing first with
  | nil => obtain ⟨_, h, _⟩ := hr; cases h
  | cons r l ih =>
    rw [Range.toStrAll]
    rcases h r List.mem_cons_self with ⟨s, hs⟩ | hs
    · rw [hs, Res.bind_ok, ih false (fun r hr => h r (List.mem_cons_of_mem _ hr)) ?_]
      · rfl
      · obtain ⟨r', h1, h2⟩ := hr
        rcases List.mem_cons.1 h1 with rfl | h1
        · rw [hs] at h2; cases h2
        · exact ⟨r', h1, h2⟩
    · rw [hs]
      rfl

theorem readsAccess_unsorted {p : Parser} (h : ReadsAccess p) : ReadsAccess (unsortedOf p) := by
  have hcfg := unsortedOf_config p
  exact {
    list := by rw [ListMode, hcfg]; exact h.list
    comments := by rw [NoComments, hcfg]; exact h.comments
    mask := by rw [hcfg]; exact h.mask
    lookup := by rw [hcfg]; exact h.lookup
    range := by rw [hcfg]; exact h.range
    protocol := by rw [hcfg]; exact h.protocol
    port := by rw [hcfg]; exact h.port
    defaultPort := by rw [hcfg]; exact h.defaultPort
    mask4 := by rw [hcfg]; exact h.mask4
    mask6 := by rw [hcfg]; exact h.mask6 }

/-- What is read of the entries of a list. -/
theorem read_access (env : ParseEnv) (p : Parser) (inp : Str) (h : ReadsAccess p) (hmerge : p.config.sort &&& SORT_MERGE = 0)
    (hn : ∀ e ∈ fields (separates p) inp, e ≠ [] → ∃ t S, Trims e t ∧ Listed t S) :
    ∃ l, (Parser.parse env inp p).2 = .ok l
      ∧ (∀ r ∈ l, ∃ e ∈ fields (separates p) inp, ∃ t, Trims e t ∧ ReadAs p t r)
      ∧ ∀ e ∈ fields (separates p) inp, ∀ t n k, Trims e t → Network t n k → ∃ r ∈ l, IsNetwork r n k := by
  have hcfg := unsortedOf_config p
  have hq := readsAccess_unsorted h
  have hs : Unsorted (unsortedOf p) := by
    rw [Unsorted, hcfg]
    show (p.config.sort &&& SORT_NO_EMPTY) &&& 0x0F = 0
    rw [BitVec.and_assoc]
    simp [SORT_NO_EMPTY]
  have hsep : separates (unsortedOf p) = separates p := by
    funext x
    rw [separates, separates, hcfg]
  have hes : ∀ e ∈ (fields (separates p) inp).filter (· ≠ []), OneEntry (unsortedOf p) e ∧ ∃ t S, Trims e t ∧ Listed t S := by
    intro e he
    rw [List.mem_filter] at he
    have : e ≠ [] := by simpa using he.2
    exact ⟨⟨this, by rw [hsep]; exact fields_mem _ _ _ he.1, hq.comments⟩, hn e he.1 this⟩
  obtain ⟨l, h1, h2, h3⟩ := parseEach_readAs (env := env) hq hs _ hes
  have h4 : Parser.parse env inp (unsortedOf p) = (unsortedOf p, .ok l) := by
    rw [C41_entrywise env inp (unsortedOf p) hq.list hq.comments hs, hsep]
    exact h1
  obtain ⟨l', h5, h6, _⟩ := C43_sort_permutes env inp p hmerge l (by rw [h4])
  have hsort : (unsortedOf p).config.sort &&& SORT_NO_EMPTY = p.config.sort &&& SORT_NO_EMPTY := by
    rw [hcfg]
    show (p.config.sort &&& SORT_NO_EMPTY) &&& SORT_NO_EMPTY = _
    rw [BitVec.and_assoc, BitVec.and_self]
  refine ⟨l', h5, fun r hr => ?_, fun e he t n k k1 k2 => ?_⟩
  · obtain ⟨e, k1, t, k2, k3⟩ := h2 r (h6.mem_iff.1 hr)
    unfold ReadAs at k3
    rw [hsort] at k3
    exact ⟨e, (List.mem_filter.1 k1).1, t, k2, k3⟩
  · have hne : e ≠ [] := by
      rintro rfl
      exact network_ne k2 (trims_eq k1).symm
    obtain ⟨r, k3, k4⟩ := h3 e (List.mem_filter.2 ⟨he, by simpa using hne⟩) t n k k1 k2
    exact ⟨r, h6.mem_iff.2 k3, k4⟩

/-- C105, as stated: a list of networks and ranges which was read is written, with commas, as a text which is read again without an error as a list
which the same addresses match. -/
def C105_claim : Prop :=
  ∀ (env : ParseEnv) (db : NetDb) (p : Parser) (inp : Str), ReadsAccess p → p.config.flags .multiAddressesCommas = true →
    p.config.sort &&& SORT_MERGE = 0 → (∀ e ∈ fields (separates p) inp, e ≠ [] → ∃ t S, Trims e t ∧ Listed t S) →
    ∃ l s l', (Parser.parse env inp p).2 = .ok l ∧ Range.toStrAll db listMode ",".toList l true = .ok s ∧ (Parser.parse env s p).2 = .ok l'
      ∧ (Parser.parse env s p).1.getErrorCount = p.getErrorCount ∧ ∀ a : Addr, addressMatchRanges l' a = addressMatchRanges l a

/-- C105 for parsers which leave out empty ranges: printing throws exactly when an IPv6 network is written with an IPv4 address; otherwise what is
printed is read again. -/
theorem C105_reread (env : ParseEnv) (db : NetDb) (p : Parser) (inp : Str) (hp : ReadsAccess p)
    (hcomma : p.config.flags .multiAddressesCommas = true) (hmerge : p.config.sort &&& SORT_MERGE = 0)
    (hempty : p.config.sort &&& SORT_NO_EMPTY ≠ 0)
    (hn : ∀ e ∈ fields (separates p) inp, e ≠ [] → ∃ t S, Trims e t ∧ Listed t S) :
    ∃ l, (Parser.parse env inp p).2 = .ok l
      ∧ (WritesTooWide p inp → Range.toStrAll db listMode ",".toList l true = .throw .unexpectedMask)
      ∧ (¬ WritesTooWide p inp → ∃ s l', Range.toStrAll db listMode ",".toList l true = .ok s ∧ (Parser.parse env s p).2 = .ok l'
        ∧ (Parser.parse env s p).1.getErrorCount = p.getErrorCount ∧ (Parser.parse env s p).1.errorMessages = p.errorMessages
        ∧ ∀ a : Addr, addressMatchRanges l' a = addressMatchRanges l a) := by
  obtain ⟨l, h1, h2, h3⟩ := read_access env p inp hp hmerge hn
  refine ⟨l, h1, ?_, ?_⟩
  · rintro ⟨e, he, t, n, k, k1, k2, k3, k4⟩
    obtain ⟨r, hr, hnet⟩ := h3 e he t n k k1 k2
    refine toStrAll_throws l true (fun r hr => ?_) ⟨r, hr, C105_throws db r ⟨n, k, hnet, k3, k4⟩⟩
    obtain ⟨_, _, t, _, hread⟩ := h2 r hr
    obtain ⟨g1, g2, _⟩ := readAs_configured hread
    by_cases hw : TooWide r
    · exact .inr (C105_throws db r hw)
    · obtain ⟨s, _, hs, _⟩ := C105_text db r g1 hw (g2 hempty)
      exact .inl ⟨s, hs⟩
  · intro hno
    refine C105_saved env db p l (fun r hr => ?_) hp hcomma hmerge
    obtain ⟨e, he, t, ht, hread⟩ := h2 r hr
    obtain ⟨g1, g2, g3⟩ := readAs_configured hread
    refine ⟨g1, fun hw => ?_, g2 hempty⟩
    obtain ⟨n, k, k1, k2, k3⟩ := g3 hw
    exact hno ⟨e, he, t, n, k, ht, k1, k2, k3⟩

/-- C105 without the IPv6 networks which are written with an IPv4 address, and the empty ranges. -/
theorem C105_partial (env : ParseEnv) (db : NetDb) (p : Parser) (inp : Str) (hp : ReadsAccess p)
    (hcomma : p.config.flags .multiAddressesCommas = true) (hmerge : p.config.sort &&& SORT_MERGE = 0)
    (hempty : p.config.sort &&& SORT_NO_EMPTY ≠ 0)
    (hn : ∀ e ∈ fields (separates p) inp, e ≠ [] → ∃ t S, Trims e t ∧ Listed t S) (hw : ¬ WritesTooWide p inp) :
    ∃ l s l', (Parser.parse env inp p).2 = .ok l ∧ Range.toStrAll db listMode ",".toList l true = .ok s ∧ (Parser.parse env s p).2 = .ok l'
      ∧ (Parser.parse env s p).1.getErrorCount = p.getErrorCount ∧ ∀ a : Addr, addressMatchRanges l' a = addressMatchRanges l a := by
  obtain ⟨l, h1, _, h2⟩ := C105_reread env db p inp hp hcomma hmerge hempty hn
  obtain ⟨s, l', h3, h4, h5, _, h6⟩ := h2 hw
  exact ⟨l, s, l', h1, h3, h4, h5, h6⟩

/-- A text is that of only one network. -/
theorem network_inj {t : Str} {n n' k k' : Nat} (h : Network t n k) (h' : Network t n' k') : n = n' ∧ k = k' := by
  have hs : Unsorted plainParser := by unfold Unsorted; decide
  have hsep := listed_separates (.network h) plainParser
  obtain ⟨r, h1, h2⟩ := parse_network (env := sampleEnv) plainParser_reads.toReadsNetworks hs (network_ne h) hsep (listed_trims (.network h)) h
  obtain ⟨r', h3, h4⟩ := parse_network (env := sampleEnv) plainParser_reads.toReadsNetworks hs (network_ne h) hsep (listed_trims (.network h)) h'
  rw [h1] at h3
  cases h3
  exact isNetwork_inj h2 h4

/-- The text of a range with two bounds is not that of a network. -/
theorem range_not_network {t u : Str} {lo m n k : Nat} (he : Entry False t u []) (hr : WrittenRange u (some lo) (some m)) (h : Network t n k) : False := by
  have hs : Unsorted plainParser := by unfold Unsorted; decide
  have hsep := listed_separates (.network h) plainParser
  obtain ⟨r, h1, h2⟩ := parse_network (env := sampleEnv) plainParser_reads.toReadsNetworks hs (network_ne h) hsep (listed_trims (.network h)) h
  obtain ⟨l, h3, _, h4⟩ := parse_range_bounds (env := sampleEnv) plainParser_reads hs ⟨network_ne h, hsep, plainParser_reads.comments⟩
    (listed_trims (.network h)) he hr
  rw [h1] at h3
  cases h3
  exact absurd (h2.2.1.symm.trans (h4 r (List.mem_singleton.2 rfl)).2.1.1) Bool.false_ne_true

/-! ### Examples -/

/-- A database without names. -/
def noNames : NetDb := ⟨fun _ => .notFound, fun _ _ => .notFound⟩

/-- The parser of the examples, which keeps empty ranges when `keep` is set. -/
def savedParser (keep : Bool) : Parser :=
  ParserOp.runAll [(sampleEnv, .setSortOrder (if keep then 0 else SORT_NO_EMPTY))] plainParser

theorem savedParser_reads (keep : Bool) : ReadsAccess (savedParser keep) := by
  cases keep <;> exact {
    list := by unfold ListMode; decide
    comments := ⟨by decide, by decide⟩
    mask := by decide
    lookup := by decide
    range := by decide
    protocol := by decide
    port := by decide
    defaultPort := by decide
    mask4 := by decide
    mask6 := by decide }

/-- C105_reread: the text of an IPv6 network which is read and cannot be printed. -/
theorem C105_claim_fails : ¬ C105_claim := by
  intro h
  have hu : IPv6Text "::ffff:10.0.0.0".toList (hextets 0xFFFF0A000000) := by
    have := (Inet.pton6_iff "::ffff:10.0.0.0".toList #v[0, 0, 0, 0, 0, 0, 0, 0, 0, 0, 255, 255, 10, 0, 0, 0]).1 (by decide +kernel)
    rwa [show ip (#v[0, 0, 0, 0, 0, 0, 0, 0, 0, 0, 255, 255, 10, 0, 0, 0] : Bytes16) = 0xFFFF0A000000 by decide +kernel] at this
  have hnet : Network "::ffff:10.0.0.0/90".toList 0xFFFF0A000000 90 :=
    .v6 (u := "::ffff:10.0.0.0".toList) (s := "90".toList) (by decide) hu (by decide) (by decide) (by decide)
  have hf : fields (separates (savedParser false)) "::ffff:10.0.0.0/90".toList = ["::ffff:10.0.0.0/90".toList] := by decide +kernel
  have hn : ∀ e ∈ fields (separates (savedParser false)) "::ffff:10.0.0.0/90".toList, e ≠ [] → ∃ t S, Trims e t ∧ Listed t S := by
    rw [hf]
    intro e he _
    rw [List.mem_singleton] at he
    rw [he]
    exact ⟨_, _, listed_trims (.network hnet), .network hnet⟩
  obtain ⟨l, s, _, h1, h2, _⟩ := h sampleEnv noNames (savedParser false) "::ffff:10.0.0.0/90".toList (savedParser_reads _) (by decide) (by decide) hn
  obtain ⟨l', h3, h4, _⟩ := C105_reread sampleEnv noNames (savedParser false) "::ffff:10.0.0.0/90".toList (savedParser_reads _) (by decide) (by decide)
    (by decide) hn
  rw [h1] at h3
  cases h3
  rw [h2] at h4
  cases h4 ⟨"::ffff:10.0.0.0/90".toList, by rw [hf]; exact List.mem_singleton.2 rfl, _, _, _, listed_trims (.network hnet), hnet, by decide, by decide⟩

/-- The text which is printed for the list which a parser returns. -/
def reprinted (r : Res (List Range)) : Option Str :=
  match r with
  | .ok l => match Range.toStrAll noNames listMode ",".toList l true with
    | .ok s => some s
    | _ => none
  | _ => none

/-- An empty range which is kept is printed as a text which the parser refuses. -/
theorem C105_empty_range :
    (Parser.parse sampleEnv "10.0.0.9-10.0.0.1".toList (savedParser true)).1.getErrorCount = 0
    ∧ reprinted (Parser.parse sampleEnv "10.0.0.9-10.0.0.1".toList (savedParser true)).2 = some "<empty address range>".toList
    ∧ (Parser.parse sampleEnv "<empty address range>".toList (savedParser true)).1.getErrorCount ≠ 0 := by
  decide +kernel

/-- C105_partial on a list with two networks and a range, written in a longer form than the one which is printed. -/
example : ∃ l s l', (Parser.parse sampleEnv "10.0.0.0/8, [::1-1.2.3.4],9.9.9.9/032".toList (savedParser false)).2 = .ok l
    ∧ Range.toStrAll noNames listMode ",".toList l true = .ok s ∧ (Parser.parse sampleEnv s (savedParser false)).2 = .ok l'
    ∧ (Parser.parse sampleEnv s (savedParser false)).1.getErrorCount = 0 ∧ ∀ a : Addr, addressMatchRanges l' a = addressMatchRanges l a := by
  have n1 : Network "10.0.0.0/8".toList (0xFFFF00000000 + 0x0A000000) (96 + 8) :=
    .v4 (v := 0x0A000000) (s := "8".toList) (by decide) (by decide) (by decide) (by decide)
  have n3 : Network "9.9.9.9/032".toList (0xFFFF00000000 + 0x09090909) (96 + 32) :=
    .v4 (v := 0x09090909) (s := "032".toList) (by decide) (by decide) (by decide) (by decide)
  have h2 : WrittenRange "::1-1.2.3.4".toList (some 1) (some 0xFFFF01020304) :=
    (.both (u := "::1".toList) (v := "1.2.3.4".toList)
      (.inr ⟨by decide, .zip (p := []) (ps := []) (z := 7) (q := "1".toList) (qs := [1]) (.inl ⟨rfl, rfl⟩)
        (.inr (.one ⟨HexNum.snoc (c := '1') (d := 1) .nil (.inl (by decide)), by decide, by decide⟩)) (by decide) (by decide)⟩) (sampleText (v := 0x01020304) (by decide) (by decide)))
  have hf : fields (separates (savedParser false)) "10.0.0.0/8, [::1-1.2.3.4],9.9.9.9/032".toList
      = ["10.0.0.0/8".toList, " [::1-1.2.3.4]".toList, "9.9.9.9/032".toList] := by decide +kernel
  have h4 : Trims " [::1-1.2.3.4]".toList "[::1-1.2.3.4]".toList := ⟨" ".toList, [], rfl, by decide, by decide, by decide, by decide⟩
  refine C105_partial sampleEnv noNames (savedParser false) _ (savedParser_reads _) (by decide) (by decide) (by decide) ?_ ?_
  · rw [hf]
    intro e he _
    simp only [List.mem_cons, List.not_mem_nil, or_false] at he
    rcases he with rfl | rfl | rfl
    · exact ⟨_, _, listed_trims (.network n1), .network n1⟩
    · exact ⟨_, _, h4, .range (u := "::1-1.2.3.4".toList) (Entry.bracket (u := "::1-1.2.3.4".toList)) h2⟩
    · exact ⟨_, _, listed_trims (.network n3), .network n3⟩
  · rintro ⟨e, he, t, n, k, k1, k2, k3, k4⟩
    rw [hf] at he
    simp only [List.mem_cons, List.not_mem_nil, or_false] at he
    rcases he with rfl | rfl | rfl
    · rw [← (trims_eq (listed_trims (.network n1))).symm.trans (trims_eq k1)] at k2
      have := (network_inj n1 k2).2
      omega
    · rw [← (trims_eq h4).symm.trans (trims_eq k1)] at k2
      exact range_not_network (Entry.bracket (u := "::1-1.2.3.4".toList)) h2 k2
    · rw [← (trims_eq (listed_trims (.network n3))).symm.trans (trims_eq k1)] at k2
      have := (network_inj n3 k2).2
      omega

end Verif
