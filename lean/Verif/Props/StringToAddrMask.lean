import Verif.Props.StringToAddr

/-!
# C68: printed addresses with a mask
-/

namespace Verif

open Spec Parser

/-! ### Printed addresses with a mask, with lookups -/

/-- What is read of a printed address. -/
structure ReadBack (a : Addr) (n : Nat) (d : Bool) (protocol : Int) (r : Range) : Prop where
  hasFrom : r.hasFrom = true
  hasTo : r.hasTo = false
  address : r.lo.getIpv6.addr = a.getIpv6.addr
  port : r.lo.getPort = n
  mask : ip r.lo.getMask = ip a.getMask
  portDefined : r.lo.portDefined = d
  protocol : r.lo.protocol = protocol

/-- The protocols for which an address is returned. -/
def protocolsOf (protocol : Int) : List Int :=
  if Parser.hintProtocol protocol = 0 then [6, 17, 0] else [Parser.hintProtocol protocol]

theorem parse_printed_mask {env : ParseEnv} (henv : NumericService env) (db : NetDb) {mode : BitVec 32} {a : Addr} {k : Nat}
    (hm : PlainMode mode) (hma : mode &&& STRING_IP_MASK_AS_ADDRESS = 0) (hpm : PrintsMask mode a) {p : Parser}
    (hreq : PrintsPort mode ∨ p.config.flags .requiredPort = false)
    (hdef : -1 ≤ p.config.defaultPort ∧ p.config.defaultPort ≤ 65535)
    (h : ip a.getMask = prefixMask k) (hk : k ≤ 128)
    (hv : isV4 (ip a.getIpv6.addr) → 96 ≤ k) (hmask : p.config.flags .mask = true)
    (hlook : p.config.flags .addressLookup = true) (hport : p.config.flags .port = true) (hcm : NoComments p) (hs : Unsorted p) :
    ∃ s l, a.toIpv4or6String db mode = .ok s ∧ '\n' ∉ s ∧ parse env s p = (p, .ok l)
      ∧ Each (fun n r => ReadBack a
          (if PrintsPort mode then a.getPort else if p.config.defaultPort = -1 then 0 else p.config.defaultPort.toNat)
          (decide (PrintsPort mode)) n r) (protocolsOf p.config.protocol) l := by
  obtain ⟨e, t, he, ht, hc, hcolon, htext⟩ := printed_text_bits db hm hma h hk hv
  rw [if_pos hpm] at htext
  generalize hq : (if PrintsPort mode then dec a.getPort else []) = q at he
  have hd : ∀ c ∈ q, c ∈ Parser.digitChars := by
    rw [← hq]
    split
    · exact dec_digits _
    · exact fun _ h => nomatch h
  have hqn : decide (q ≠ []) = decide (PrintsPort mode) := by
    rw [← hq]
    split
    · rename_i h; rw [decide_eq_true h, decide_eq_true (dec_ne_nil _)]
    · rename_i h; rw [decide_eq_false h]; rfl
  obtain ⟨g1, g2, g3, g4, g5, g6⟩ := forbidMask_agree p
  have hcm' : NoComments (forbidMask p) :=
    ⟨by rw [g5 _ (by decide)]; exact hcm.1, by rw [g5 _ (by decide)]; exact hcm.2⟩
  have hport' : (forbidMask p).config.flags .port = true := by rw [g5 _ (by decide)]; exact hport
  obtain ⟨v6, hparse⟩ := parse_written (env := env) (p := forbidMask p) he ht.nonempty hc hd (.inr (.inl hport'))
    hcm' (by rw [Unsorted, g6]; exact hs) (.inl g2)
  have hdp : (forbidMask p).config.defaultPort = p.config.defaultPort := rfl
  generalize p.config.defaultPort = port at hdef hdp
  have hrun : Parser.parseAddressPort env t q [] v6 (forbidMask p)
      = Parser.lookupAddress env t (if (!decide (q ≠ []) && decide (port ≠ -1)) = true then intStr port else q) (decide (q ≠ [])) []
          (forbidMask p) := by
    have hreq' : ¬ ((forbidMask p).config.flags .requiredPort && !decide (q ≠ [])) = true := by
      rw [hqn, g5 _ (by decide)]
      rcases hreq with h | h
      · simp [h]
      · simp [h]
    rw [Parser.parseAddressPort, PM.config_bind]
    dsimp only
    rw [if_neg (by rw [← Bool.and_comm] at hreq'; simpa using hreq'), if_neg (by simp [ht.nonempty]), if_neg ht.nonempty,
      if_pos (by rw [g5 _ (by decide)]; exact hlook), hdp]
  obtain ⟨n, hn⟩ : ∃ n, n = if PrintsPort mode then a.getPort else if port = -1 then 0 else port.toNat := ⟨_, rfl⟩
  have hbound : n ≤ 65535 := by
    rw [hn]
    split
    · have := (swap16 a.address.port).isLt
      show (swap16 a.address.port).toNat ≤ 65535
      omega
    · split
      · omega
      · omega
  have hX : (if (!decide (q ≠ []) && decide (port ≠ -1)) = true then intStr port else q)
      = if PrintsPort mode then dec n else if port = -1 then [] else dec n := by
    rw [hqn, ← hq, hn]
    by_cases hpp : PrintsPort mode
    · simp only [decide_eq_true hpp, Bool.not_true, Bool.false_and, Bool.false_eq_true, if_false, if_pos hpp]
    · by_cases h1 : port = -1
      · simp [hpp, h1]
      · rw [if_neg hpp, if_neg hpp, if_neg hpp, if_neg h1, if_neg h1, if_pos (by simp [hpp, h1]), intStr_nonneg (by omega), decStr_dec]
  have hserv : (if (if (!decide (q ≠ []) && decide (port ≠ -1)) = true then intStr port else q) = [] then ['0']
      else cstr (if (!decide (q ≠ []) && decide (port ≠ -1)) = true then intStr port else q)) = dec n := by
    rw [hX]
    by_cases hpp : PrintsPort mode
    · rw [if_pos hpp, if_neg (dec_ne_nil _), cstr_dec]
    · rw [if_neg hpp] at hn ⊢
      by_cases h1 : port = -1
      · rw [if_pos h1] at hn ⊢
        rw [if_pos rfl, hn]
        decide
      · rw [if_neg h1, if_neg (dec_ne_nil _), cstr_dec]
  obtain ⟨l, h1, h2⟩ := lookup_numeric (p := forbidMask p) henv ht hbound (decide (q ≠ [])) hserv
  have hl := hparse l (hrun.trans h1)
  rw [← hn, ← hqn]
  have hproto : (forbidMask p).config.protocol = p.config.protocol := rfl
  rw [hproto] at h2
  obtain ⟨ha, h3⟩ := written_entry (p := p) he ht.nonempty hc hd (.inr (.inl hport)) hcm
  obtain ⟨_, _, hasv⟩ := parseAddress_written (p := p) env he ht.nonempty hc hd (.inr (.inl hport)) []
  have hbits : ∀ r, r.lo.getIpv6.addr = a.getIpv6.addr → maskBits p e r = if isV4 (ip a.getIpv6.addr) then 32 else 128 := by
    intro r hr
    have hb : r.lo.isIpv4 = true ↔ isV4 (ip a.getIpv6.addr) := by
      rw [← hr, isIpv4_iff]
      exact Iff.rfl
    rw [maskBits]
    by_cases h4 : isV4 (ip a.getIpv6.addr)
    · rw [if_pos h4, if_pos ⟨(asIpv4_iff p e).1 (hasv.2 (hcolon.2 h4)), hb.2 h4⟩]
    · rw [if_neg h4, if_neg fun h' => h4 (hb.1 h'.2)]
  have hval : ∀ m, Nat.ofDigitChars 10 (dec m) 0 = m := fun m => by simp [dec, Nat.ofDigitChars_ten_toDigits]
  have hdig : ∀ c ∈ digitChars, c.isDigit = true := by decide
  have haddr : ∀ d k r, Looked t a.getIpv6.addr n d k r → r.lo.getIpv6.addr = a.getIpv6.addr := fun d k r hr => by
    rw [hr.address]
  obtain ⟨l', hl', hall⟩ := (C40_decimal_mask env p e (dec (if isV4 (ip a.getIpv6.addr) then k - 96 else k)) l hmask ha h3
    hs Nat.toDigits_ne_nil (fun c hc => hdig c (dec_digits _ c hc)) hl).2 (by
      intro r hr
      obtain ⟨_, _, hlk⟩ := each_mem h2 hr
      rw [hbits r (haddr _ _ r hlk), hval]
      split <;> omega)
  have hnl : '\n' ∉ e ++ '/' :: dec (if isV4 (ip a.getIpv6.addr) then k - 96 else k) := by
    intro h
    rcases List.mem_append.1 h with h | h
    · exact absurd (printed_chars he hc hd _ h) (by decide)
    · rcases List.mem_cons.1 h with h | h
      · exact absurd h (by decide)
      · exact absurd (dec_digits _ _ h) (by decide)
  refine ⟨_, l', htext, hnl, hl', ?_⟩
  rw [protocolsOf]
  generalize (if Parser.hintProtocol p.config.protocol = 0 then [6, 17, 0] else [Parser.hintProtocol p.config.protocol]) = ks at h2
  clear hl hl' hparse h1
  induction h2 generalizing l' with
  | nil => cases hall; exact .nil
  | cons hx _ ih =>
    cases hall with
    | cons hy hall =>
      refine .cons ?_ (ih _ hall)
      obtain ⟨x1, x2, x3, x4, x5, x6⟩ := hy
      refine ⟨x1.trans hx.hasFrom, x2.trans hx.hasTo, ?_, ?_, ?_, x4.portDefined.trans hx.portDefined,
        x4.protocol.trans hx.protocol⟩
      · rw [Addr.getIpv6, x4.address]
        exact haddr _ _ _ hx
      · rw [Addr.getPort, x4.address]
        have := hx.address
        rw [Addr.getIpv6] at this
        rw [this, swap16_swap16, BitVec.toNat_ofNat]
        omega
      · rw [x6, hbits _ (haddr _ _ _ hx), hval, h]
        split
        · rename_i h4
          have := hv h4
          congr 1; omega
        · congr 1; omega

/-- C68: an address which was printed with its mask is converted to the same address and mask, when masks are allowed. -/
theorem C68_printed_mask (env : ParseEnv) (henv : NumericService env) (db : NetDb) (mode : BitVec 32) (a : Addr) (k : Nat)
    (hm : PlainMode mode) (hma : mode &&& STRING_IP_MASK_AS_ADDRESS = 0) (hpm : PrintsMask mode a)
    (h : ip a.getMask = prefixMask k) (hk : k ≤ 128) (hv : isV4 (ip a.getIpv6.addr) → 96 ≤ k)
    (d : Str) (port : Int) (proto : Str) (hacc : Acceptable env d port proto)
    (hp : proto ≠ [] → env.getprotobyname (cstr proto) = some 6 ∨ env.getprotobyname (cstr proto) = some 17) :
    ∃ s r, a.toIpv4or6String db mode = .ok s ∧ Parser.stringToAddr env s d port proto true = .ok r
      ∧ ip r.getIpv6.addr = ip a.getIpv6.addr
      ∧ r.getPort = (if PrintsPort mode then a.getPort else if port = -1 then 0 else port.toNat)
      ∧ r.portDefined = decide (PrintsPort mode)
      ∧ r.protocol = (if proto = [] then 6 else (env.getprotobyname (cstr proto)).getD 0)
      ∧ ip r.getMask = ip a.getMask := by
  rcases stringToAddr_cases (env := env) (d := d) (port := port) (proto := proto) (mask := true) [] with ⟨h1, _⟩ | ⟨_, _, h3⟩
  · exact absurd hacc h1
  have hf : ∀ f, (ownParser env d port proto true).config.flags f
      = if f = .mask then true else decide (f = .address ∨ f = .addressLookup ∨ f = .port) := fun f => by rw [h3.flags]
  obtain ⟨s, l, htext, _, hl, h5⟩ := parse_printed_mask (p := ownParser env d port proto true) henv db hm hma hpm
    (.inr (by simp [hf])) (by rw [h3.port]; exact hacc.port) h hk hv (by simp [hf]) (by simp [hf]) (by simp [hf])
    ⟨by simp [hf], by simp [hf]⟩ (by rw [Unsorted, h3.sort]; rfl)
  rw [h3.port, h3.protocol, protocolNumber, protocolsOf] at h5
  rcases stringToAddr_cases (env := env) (d := d) (port := port) (proto := proto) (mask := true) s with ⟨h1, _⟩ | ⟨_, h2, _⟩
  · exact absurd hacc h1
  generalize ownParser env d port proto true = p at h2 hl
  generalize (if PrintsPort mode then a.getPort else if port = -1 then 0 else port.toNat) = n at h5 ⊢
  generalize decide (PrintsPort mode) = b at h5 ⊢
  have hall : ∀ r ∈ l, r.hasFrom = true ∧ r.hasTo = false := fun r hr => by
    obtain ⟨_, _, h⟩ := each_mem h5 hr
    exact ⟨h.hasFrom, h.hasTo⟩
  have hpick : ∃ r k, ReadBack a n b k r ∧ Picks proto l r.lo
      ∧ k = (if proto = [] then 6 else (env.getprotobyname (cstr proto)).getD 0) := by
    by_cases h0 : proto = []
    · rw [if_pos h0] at h5
      have e0 : Parser.hintProtocol (-1) = 0 := by decide
      rw [e0, if_pos rfl] at h5
      cases h5 with
      | @cons _ r1 _ _ g1 h5 =>
        cases h5 with
        | @cons _ r2 _ _ g2 h5 =>
          cases h5 with
          | @cons _ r3 _ _ g3 h5 =>
            cases h5
            refine ⟨r1, 6, g1, (.inr ⟨h0, (fun h => nomatch h), [], r1, [r2, r3], rfl, rfl, g1.protocol, ?_⟩), by rw [if_pos h0]⟩
            intro s hs
            rw [List.nil_append] at hs
            rcases List.mem_cons.1 hs with rfl | hs
            · rw [g2.protocol]; decide
            · rw [List.mem_singleton.1 hs, g3.protocol]; decide
    · rw [if_neg h0] at h5
      have hk : ∃ k : Int, env.getprotobyname (cstr proto) = some k ∧ (k = 6 ∨ k = 17) := by
        rcases hp h0 with h | h
        · exact ⟨6, h, .inl rfl⟩
        · exact ⟨17, h, .inr rfl⟩
      obtain ⟨k, hk, hk6⟩ := hk
      have e0 : Parser.hintProtocol ((some k).getD (-1)) = k := by
        rcases hk6 with rfl | rfl <;> rfl
      rw [hk, e0, if_neg (by omega)] at h5
      cases h5 with
      | @cons _ r1 _ _ g1 h5 =>
        cases h5
        exact ⟨r1, k, g1, .inl ⟨r1, rfl, rfl⟩, by rw [if_neg h0, hk]; rfl⟩
  obtain ⟨r, k, g, hr, hk⟩ := hpick
  refine ⟨s, r.lo, htext, ?_, by rw [g.address], g.port, g.portDefined, g.protocol.trans hk, g.mask⟩
  rw [h2, PM.bind_of_ok hl]
  rcases pickOne_cases (proto := proto) hall p with ⟨x, h6, h7⟩ | ⟨_, h7⟩
  · rw [h6, (h7 _).1 hr]
  · exact absurd hr (h7 _)

/-- An address with a mask, without protocol. -/
example : (match Parser.stringToAddr serviceEnv "10.1.2.3:80/8".toList [] (-1) [] true with
    | .ok r => r.getPort == 80 && r.protocol == 6 && ip r.getIpv6.addr == 0xFFFF0A010203 && ip r.getMask == prefixMask 104
    | _ => false) = true := by decide +kernel

end Verif
