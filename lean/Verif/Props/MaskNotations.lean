import Verif.Props.AddressMask

/-! Two notations of the mask of a network (C160). -/

namespace Verif

open Spec

/-- The mask `m` which goes with an entry says which bits count: there is one, and it is not a pair of brackets without an address. -/
def SaysMask (m : Str) : Prop := m ≠ [] ∧ m ≠ "[]".toList

namespace Parser

/-- What is read when a mask is written: only the mask of the address depends on it. -/
theorem parseMask_says {env : ParseEnv} {p : Parser} {a : Addr} {v4 : Bool} {e : Str} {port : Nat}
    (hf : p.config.flags .addressMask = true) (hport : a.getPort = port)
    (hproto : a.protocol = if p.config.protocol = -1 then 6 else p.config.protocol)
    (hknown : KnownProtocol p.config.protocol) (hlimit : maskLimit v4 = entryBits e) {m : Str} {v : Nat} (hnul : '\x00' ∉ m)
    (hs : SaysMask m) (h : WritesMask env p e port m v) :
    ∃ bits, parseMask env m a v4 p = (p, .ok { a with maskDefined := true, mask := bits }) ∧ ip bits = v := by
  have hc : cstr m = m := cstr_noNul fun c hc e => hnul (e ▸ hc)
  have hask (x : Str) : env.getaddrinfo x (Inet.decStr a.getPort) true (hintProtocol a.protocol) = maskAnswer env p port x := by
    rw [maskAnswer, hport, decStr_dec, hproto]
    congr 1
    rcases hknown with h | h | h | h <;> rw [h] <;> decide
  cases h with
  | none => exact absurd rfl hs.1
  | bits hne hd hk =>
    refine ⟨prefixBytes (Nat.ofDigitChars 10 m 0 + (128 - maskLimit v4)), by rw [(parseMask_number env m hne hd a v4).1 (by rw [hlimit]; exact hk)]; rfl, ?_⟩
    have : entryBits e ≤ 128 := by rw [entryBits]; split <;> omega
    rw [hlimit, ip_prefixBytes _ (by omega), Nat.add_comm]
  | @four _ pr sa l he hm hb ha =>
    have hv : v4 = true := by
      cases v4 with
      | true => rfl
      | false => rw [he] at hlimit; exact absurd hlimit (by decide)
    have hne : m ≠ [] := by
      rintro rfl
      obtain ⟨ds, x, rest, h1, _⟩ := hm
      cases ds <;> cases h1
    have hadd : addressMask env m a true p = (p, .ok (some (mask4 sa.addr))) := by
      rw [addressMask, PM.config_bind, hf]
      simp only [Bool.not_true, Bool.false_eq_true, if_false, Bool.true_and, Bool.false_and, hb, decide_false, if_true, hc, hask, ha]
      rfl
    refine ⟨mask4 sa.addr, ?_, ip_mask4 _⟩
    rw [hv, parseMask, if_neg hne, hc, (scanDigits_notNumber (by omega)).2 hm]
    simp only [PM.bind_def, hadd]
    rfl
  | @six x pr sa l he hne ha =>
    have hv : v4 = false := by
      cases v4 with
      | false => rfl
      | true => rw [he] at hlimit; exact absurd hlimit (by decide)
    have hx : cstr x = x := cstr_noNul fun c hc e => hnul (e ▸ (by simp [hc]))
    have hadd : addressMask env ('[' :: x ++ [']']) a false p = (p, .ok (some sa.addr)) := by
      rw [addressMask, PM.config_bind, hf]
      have hh : ('[' :: x ++ [']']).head? = some '[' := rfl
      have hl : ('[' :: x ++ [']']).getLast? = some ']' := by rw [List.getLast?_append]; rfl
      have hd : (('[' :: x ++ [']']).drop 1).dropLast = x := by simp
      rw [hh, hl, hd]
      simp only [Bool.not_true, Bool.not_false, Bool.false_eq_true, if_false, Bool.false_and, Bool.true_and, ne_eq, not_true_eq_false,
        decide_false, hne, hx, hask, ha]
      rfl
    refine ⟨sa.addr, ?_, rfl⟩
    rw [hv, parseMask, if_neg (by simp), hc, show scanDigits 10000 ('[' :: x ++ [']']) 0 = .notNumber from rfl]
    simp only [PM.bind_def, hadd]
    rfl
  | brackets he => exact absurd rfl hs.2

end Parser

/-- The range which is read, for all the masks which can be written after an entry. -/
theorem notation_read {env : ParseEnv} {p : Parser} {e u q : Str} {n port : Nat} (inp0 : Str) (h0 : ReadsAnyMask p inp0)
    (he : Entry (PortsAllowed p) e u q) (ha : AddressOf u n) (hq : PortOf env p.config q port) :
    ∃ r : Range, r.hasFrom = true ∧ ∀ inp t m v, ReadsAnyMask p inp → Trims inp t → CutMask t e m → '\x00' ∉ maskInEffect p e m →
      SaysMask (maskInEffect p e m) → WritesMask env p e port (maskInEffect p e m) v →
      ∃ bits : Bytes16, ip bits = v
        ∧ Parser.parse env inp p = (p, .ok [{ r with lo := { r.lo with maskDefined := true, mask := bits } }]) := by
  obtain ⟨v4, r, h1, h2, _, h4, h5, h6, h7, h8, h9, h10, h11⟩ := readsAnyMask_address (m := []) h0 he ha hq
  refine ⟨r, h4, fun inp t m v h ht hcut hnul hs hm => ?_⟩
  obtain ⟨v4', r', k1, k2, k3, _⟩ := readsAnyMask_address (m := m) h he ha hq
  have hh := (entry_bits he ha).1
  rw [Parser.parseAddress_mask env e m [] p hh, h1] at k1
  cases k1
  obtain ⟨bits, g1, g2⟩ := Parser.parseMask_says (a := r.lo) h.addressMask h7 h11 h.protocol h2 hnul hs hm
  refine ⟨bits, g2, ?_⟩
  have hk := (Parser.parseAddress_mask env e m [] p hh).trans h1
  have := parse_readsAnyMask h ht hcut hk (p2 := p) (l2 := [{ r with lo := { r.lo with maskDefined := true, mask := bits } }]) (by
    rw [Parser.maskLoop, PM.config_bind, k3, PM.bind_of_ok g1]
    rfl)
  rw [this, if_pos rfl]

/-! ### C160 -/

/-- C160: with two masks which are written after the same entry (or which are default masks), the results are the same, in all their
parts, exactly when the same bits count in both. -/
theorem C160_notations (env : ParseEnv) (p : Parser) (inp inp' t t' e m m' u q : Str) (n port v v' : Nat) (h : ReadsAnyMask p inp)
    (h' : ReadsAnyMask p inp') (ht : Trims inp t) (ht' : Trims inp' t') (hcut : CutMask t e m) (hcut' : CutMask t' e m')
    (he : Entry (PortsAllowed p) e u q) (ha : AddressOf u n) (hq : PortOf env p.config q port)
    (hnul : '\x00' ∉ maskInEffect p e m) (hnul' : '\x00' ∉ maskInEffect p e m')
    (hs : SaysMask (maskInEffect p e m)) (hs' : SaysMask (maskInEffect p e m'))
    (hm : WritesMask env p e port (maskInEffect p e m) v) (hm' : WritesMask env p e port (maskInEffect p e m') v') :
    Parser.parse env inp p = Parser.parse env inp' p ↔ v = v' := by
  obtain ⟨r, _, hr⟩ := notation_read inp h he ha hq
  obtain ⟨b, h1, h2⟩ := hr inp t m v h ht hcut hnul hs hm
  obtain ⟨b', h1', h2'⟩ := hr inp' t' m' v' h' ht' hcut' hnul' hs' hm'
  rw [h2, h2']
  constructor
  · intro heq
    injection heq with _ heq
    injection heq with heq
    injection heq with heq
    have : b = b' := congrArg (fun x : Range => x.lo.mask) heq
    rw [← h1, ← h1', this]
  · intro hv
    rw [ip_inj (h1.trans (hv.trans h1'.symm))]

/-- C160: after an IPv4 address, the number of bits `k` (in decimal, with or without leading zeros) and the four bytes in dotted decimal
notation of the mask of `k` ones are read as the same. -/
theorem C160_dotted (env : ParseEnv) (p : Parser) (inp inp' t t' e m u q : Str) (n port : Nat) (mask : Bytes4) (h : ReadsAnyMask p inp)
    (h' : ReadsAnyMask p inp') (ht : Trims inp t) (ht' : Trims inp' t') (hcut : CutMask t e m) (hcut' : CutMask t' e (dotted (ip4 mask)))
    (he : Entry (PortsAllowed p) e u q) (hb : entryBits e = 32) (ha : AddressOf u n) (hq : PortOf env p.config q port) (henv : ReadsTexts env)
    (hne : m ≠ []) (hd : ∀ c ∈ m, c.isDigit = true) (hk : Nat.ofDigitChars 10 m 0 ≤ 32) :
    Parser.parse env inp p = Parser.parse env inp' p ↔ ip4 mask = 2 ^ 32 - 2 ^ (32 - Nat.ofDigitChars 10 m 0) := by
  have hm : maskInEffect p e m = m := by rw [maskInEffect, if_pos hne]
  have hc : ∀ c ∈ dotted (ip4 mask), c ∈ Parser.addressChars := by
    rw [← ntop4_dotted]
    exact fun c hc => (by decide : ∀ c ∈ "0123456789.".toList, c ∈ Parser.addressChars) c (Inet.ntop4_chars _ c hc)
  have hm' : maskInEffect p e (dotted (ip4 mask)) = dotted (ip4 mask) := by
    rw [maskInEffect, if_pos (by simp [dotted])]
  obtain ⟨pr, sa, l, g1, g2⟩ := henv.v4 mask (dec port) (if p.config.protocol = -1 then IPPROTO_TCP else p.config.protocol)
  have hlike : AddressLike (dotted (ip4 mask)) := by
    have := ntop4_notNumber mask
    rw [ntop4_dotted, Parser.cstr_chars hc] at this
    exact (Parser.scanDigits_notNumber (by omega)).1 this
  have hw := WritesMask.four (p := p) (port := port) hb hlike (fun h => absurd (hc _ (List.mem_of_head? h)) (by decide)) g1
  rw [g2] at hw
  have hdig (x : Char) (hx : x.isDigit = false) : x ∉ m := fun h => by rw [hd x h] at hx; cases hx
  have key := C160_notations env p inp inp' t t' e m (dotted (ip4 mask)) u q n port _ _ h h' ht ht' hcut hcut' he ha hq
    (by rw [hm]; exact hdig _ (by decide)) (by rw [hm']; exact fun h => absurd (hc _ h) (by decide))
    (by rw [hm]; exact ⟨hne, fun h => hdig '[' (by decide) (by rw [h]; decide)⟩)
    (by rw [hm']; exact ⟨by simp [dotted], fun h => absurd (hc '[' (by rw [h]; decide)) (by decide)⟩)
    (by rw [hm]; exact .bits hne hd (by rw [hb]; exact hk)) (by rw [hm']; exact hw)
  rw [key, hb, prefixMask, show 128 - (128 - 32 + Nat.ofDigitChars 10 m 0) = 32 - Nat.ofDigitChars 10 m 0 by omega]
  have h2 : 2 ^ (32 - Nat.ofDigitChars 10 m 0) ≤ 2 ^ 32 := Nat.pow_le_pow_right (by omega) (by omega)
  generalize 2 ^ (32 - Nat.ofDigitChars 10 m 0) = y at *
  omega

/-- C160: after an IPv6 address (or an address in brackets), the number of bits `k` and the mask of `k` ones as an IPv6 address in brackets,
in any notation of this address, are read as the same. -/
theorem C160_bracketed (env : ParseEnv) (p : Parser) (inp inp' t t' e m x u q : Str) (n port : Nat) (mask : Bytes16) (h : ReadsAnyMask p inp)
    (h' : ReadsAnyMask p inp') (ht : Trims inp t) (ht' : Trims inp' t') (hcut : CutMask t e m) (hcut' : CutMask t' e ('[' :: x ++ [']']))
    (hx : IPv6Text x (hextets (ip mask))) (he : Entry (PortsAllowed p) e u q) (hb : entryBits e = 128) (ha : AddressOf u n)
    (hq : PortOf env p.config q port) (henv : ReadsTexts env) (hne : m ≠ []) (hd : ∀ c ∈ m, c.isDigit = true)
    (hk : Nat.ofDigitChars 10 m 0 ≤ 128) :
    Parser.parse env inp p = Parser.parse env inp' p ↔ ip mask = prefixMask (Nat.ofDigitChars 10 m 0) := by
  have hm : maskInEffect p e m = m := by rw [maskInEffect, if_pos hne]
  have hxa : AddressOf x (ip mask) := .inr ⟨ip_lt mask, hx⟩
  have hc := Parser.address_chars hxa
  have hm' : maskInEffect p e ('[' :: x ++ [']']) = '[' :: x ++ [']'] := by
    rw [maskInEffect, if_pos (by simp)]
  obtain ⟨pr, sa, l, g1, g2⟩ := henv.v6 x mask (dec port) (if p.config.protocol = -1 then IPPROTO_TCP else p.config.protocol) hx
  have hw := WritesMask.six (p := p) (port := port) hb (Parser.address_ne hxa) g1
  rw [g2] at hw
  have hdig (x : Char) (hx : x.isDigit = false) : x ∉ m := fun h => by rw [hd x h] at hx; cases hx
  have key := C160_notations env p inp inp' t t' e m _ u q n port _ _ h h' ht ht' hcut hcut' he ha hq
    (by rw [hm]; exact hdig _ (by decide))
    (by
      rw [hm']
      intro h
      rcases List.mem_append.1 h with h | h
      · rcases List.mem_cons.1 h with h | h
        · exact absurd h (by decide)
        · exact absurd (hc _ h) (by decide)
      · exact absurd h (by decide))
    (by rw [hm]; exact ⟨hne, fun h => hdig '[' (by decide) (by rw [h]; decide)⟩)
    (by
      rw [hm']
      refine ⟨by simp, fun h => ?_⟩
      have h1 := congrArg List.length h
      have h2 := Parser.address_ne hxa
      cases x with
      | nil => exact h2 rfl
      | cons c x => simp at h1)
    (by rw [hm]; exact .bits hne hd (by rw [hb]; exact hk)) (by rw [hm']; exact hw)
  rw [key, hb, show 128 - 128 + Nat.ofDigitChars 10 m 0 = Nat.ofDigitChars 10 m 0 by omega]
  exact ⟨Eq.symm, Eq.symm⟩

/-- C160: the default mask counts as if it were written: without a mask, an entry is read as with the default mask after it. -/
theorem C160_default (env : ParseEnv) (p : Parser) (inp inp' t t' e u q : Str) (n port v : Nat) (h : ReadsAnyMask p inp)
    (h' : ReadsAnyMask p inp') (ht : Trims inp t) (ht' : Trims inp' t') (hcut : CutMask t e []) (hcut' : CutMask t' e (maskInEffect p e []))
    (he : Entry (PortsAllowed p) e u q) (ha : AddressOf u n) (hq : PortOf env p.config q port)
    (hnul : '\x00' ∉ maskInEffect p e []) (hs : SaysMask (maskInEffect p e [])) (hm : WritesMask env p e port (maskInEffect p e []) v) :
    Parser.parse env inp p = Parser.parse env inp' p := by
  have hm' : maskInEffect p e (maskInEffect p e []) = maskInEffect p e [] := by
    conv => lhs; rw [maskInEffect, if_pos hs.1]
  exact (C160_notations env p inp inp' t t' e [] _ u q n port v v h h' ht ht' hcut hcut' he ha hq hnul (by rw [hm']; exact hnul) hs
    (by rw [hm']; exact hs) hm (by rw [hm']; exact hm)).2 rfl

/-! ### Examples -/

/-- "10.1.2.3:80/020" and " 10.1.2.3:80/255.255.240.0" are read as the same. -/
example : Parser.parse numericEnv "10.1.2.3:80/020".toList printParser = Parser.parse numericEnv " 10.1.2.3:80/255.255.240.0".toList printParser :=
  (C160_dotted numericEnv printParser "10.1.2.3:80/020".toList " 10.1.2.3:80/255.255.240.0".toList "10.1.2.3:80/020".toList
    "10.1.2.3:80/255.255.240.0".toList "10.1.2.3:80".toList "020".toList "10.1.2.3".toList "80".toList 0xFFFF0A010203 80 #v[255, 255, 240, 0]
    (printParser_readsAny _ (by decide)) (printParser_readsAny _ (by decide)) (trims_self (by decide) (by decide))
    ⟨" ".toList, [], by decide, by decide, (fun _ h => nomatch h), by decide, by decide⟩ ⟨by decide, .inr (by decide)⟩
    ⟨by decide, .inr (by decide +kernel)⟩
    (Entry.port4 (u := "10.1.2.3".toList) (q := "80".toList) (by decide) (by decide) (.inl (by decide))) (by decide)
    (.inl ⟨0x0A010203, by decide, by decide, rfl⟩) ⟨by decide, by rw [if_pos (by decide)]; exact ⟨.inl (by decide), by decide⟩⟩ numericEnv_texts
    (by decide) (by decide) (by decide)).2 (by decide)

/-- "10.1.2.3:80/20" and "10.1.2.3:80/255.255.0.0" are not. -/
example : Parser.parse numericEnv "10.1.2.3:80/20".toList printParser ≠ Parser.parse numericEnv "10.1.2.3:80/255.255.0.0".toList printParser :=
  fun h => absurd ((C160_dotted numericEnv printParser "10.1.2.3:80/20".toList "10.1.2.3:80/255.255.0.0".toList "10.1.2.3:80/20".toList
    "10.1.2.3:80/255.255.0.0".toList "10.1.2.3:80".toList "20".toList "10.1.2.3".toList "80".toList 0xFFFF0A010203 80 #v[255, 255, 0, 0]
    (printParser_readsAny _ (by decide)) (printParser_readsAny _ (by decide)) (trims_self (by decide) (by decide))
    (trims_self (by decide) (by decide)) ⟨by decide, .inr (by decide)⟩ ⟨by decide, .inr (by decide +kernel)⟩
    (Entry.port4 (u := "10.1.2.3".toList) (q := "80".toList) (by decide) (by decide) (.inl (by decide))) (by decide)
    (.inl ⟨0x0A010203, by decide, by decide, rfl⟩) ⟨by decide, by rw [if_pos (by decide)]; exact ⟨.inl (by decide), by decide⟩⟩ numericEnv_texts
    (by decide) (by decide) (by decide)).1 h) (by decide)

end Verif
