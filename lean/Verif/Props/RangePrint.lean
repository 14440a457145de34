import Verif.Props.RangeText
import Verif.Lemmas.ToolWords
import Verif.Lemmas.Ostream

/-!
# Property C87: printed ranges are read back
-/

namespace Verif

open Spec Inet

/-- The bounds of a range which are set. -/
def boundsOf (r : Range) : Option Nat × Option Nat :=
  (if r.hasFrom then some (ip r.lo.getIpv6.addr) else none, if r.hasTo then some (ip r.hi.getIpv6.addr) else none)

/-- A range with an address: one of its bounds is set, and when both are the first is not after the last. -/
def HasAddresses (r : Range) : Prop := Defined r ∧ (Complete r → ip r.lo.getIpv6.addr ≤ ip r.hi.getIpv6.addr)

/-- A range which is not a network: when it has only one bound, the mask of this bound is made of ones. -/
def NoMask (r : Range) : Prop :=
  (r.hasFrom = true → r.hasTo = false → ip r.lo.getMask = 2 ^ 128 - 1) ∧ (r.hasFrom = false → r.hasTo = true → ip r.hi.getMask = 2 ^ 128 - 1)

theorem printed_address (db : NetDb) (a : Addr) : ∃ s, a.toIpv4or6String db STRING_IP_ADDRESS = .ok s ∧ AddressOf s (ip a.getIpv6.addr) := by
  by_cases h : isV4 (ip a.getIpv6.addr)
  · obtain ⟨s, h1, h2, _⟩ := C21_ipv4_text db a h
    refine ⟨s, by rw [Addr.toIpv4or6String, if_pos ((isIpv4_iff a).2 h), h1], .inl ⟨_, Nat.mod_lt _ (by decide), h2, ?_⟩⟩
    rw [isV4_iff_div] at h
    omega
  · obtain ⟨s, h1, _, h2⟩ := C22_ipv6_text db a h
    refine ⟨s, by rw [Addr.toIpv4or6String, if_neg (fun h' => h ((isIpv4_iff a).1 h')), h1], .inr ⟨ip_lt _, (Inet.pton6_iff _ _).1 h2⟩⟩

/-- C87: the text of a range with an address, in the mode which prints addresses only, is one of the texts of ranges, with the same bounds. -/
theorem C87_text (db : NetDb) (r : Range) (h : HasAddresses r) :
    ∃ s, r.toStr db STRING_IP_ADDRESS = .ok s ∧ WrittenRange s (boundsOf r).1 (boundsOf r).2 := by
  obtain ⟨s, s1, s2⟩ := printed_address db r.lo
  obtain ⟨t, t1, t2⟩ := printed_address db r.hi
  obtain ⟨hd, hc⟩ := h
  have hm : STRING_IP_ADDRESS &&& (STRING_IP_ADDRESS ||| STRING_IP_BRACKET_ADDRESS) = STRING_IP_ADDRESS := by decide
  have he : r.isEmpty = false := by
    rw [← Bool.not_eq_true, isEmpty_iff]
    rintro ⟨h1, h2⟩
    have := hc h1
    have : toIp r < fromIp r := h2
    unfold toIp fromIp at this
    exact absurd this (Nat.not_lt.2 (hc h1))
  unfold Range.toStr
  rw [hm, s1, t1, he]
  unfold boundsOf
  unfold Defined at hd
  cases hf : r.hasFrom <;> cases ht : r.hasTo
  · rw [hf, ht] at hd
    exact absurd hd (by decide)
  · exact ⟨_, rfl, .stop t2⟩
  · exact ⟨_, rfl, .one s2⟩
  · exact ⟨_, rfl, .both s2 t2⟩

theorem written_bare {u : Str} {lo hi : Option Nat} (h : WrittenRange u lo hi) (ports : Prop) : Entry ports u u [] := by
  have key : ':' ∉ u ∨ 2 ≤ u.count ':' := by
    have ac : ∀ {v : Str} {n : Nat}, AddressOf v n → v.count ':' = 0 ∨ 2 ≤ v.count ':' := fun h => by
      rcases Parser.address_colon h with h | h
      · exact .inl (List.count_eq_zero.2 h.1)
      · exact .inr h
    have : u.count ':' = 0 ∨ 2 ≤ u.count ':' := by
      cases h with
      | one h => exact ac h
      | start h =>
        have := ac h
        rw [List.count_append, show ['-'].count ':' = 0 by decide]
        omega
      | stop h =>
        have := ac h
        rw [List.count_cons_of_ne (by decide)]
        exact this
      | both h h' =>
        have := ac h
        have := ac h'
        rw [List.count_append, List.count_cons_of_ne (by decide)]
        omega
    exact this.imp_left List.count_eq_zero.1
  exact key.elim .bare4 .bare6

theorem written_trims {u : Str} {lo hi : Option Nat} (h : WrittenRange u lo hi) : Trims u u := by
  have : ∀ c ∈ u, c ∉ " \t\n\x0b\x0c\r".toList := fun c hc =>
    (by decide : ∀ c ∈ '-' :: Parser.textChars, c ∉ " \t\n\x0b\x0c\r".toList) c (Parser.bounds_chars h c hc)
  exact trims_self (fun c hc => this c (List.mem_of_head? hc)) (fun c hc => this c (List.mem_of_getLast? hc))

/-- C87: such a text is read back as a range with the same bounds. -/
theorem C87_roundtrip (env : ParseEnv) (db : NetDb) (p : Parser) (r : Range) (h : HasAddresses r) (s : Str)
    (hs : r.toStr db STRING_IP_ADDRESS = .ok s) (hp : ReadsRange p s) (hport : p.config.flags .requiredPort = false)
    (hdef : p.config.defaultPort = -1) :
    ∃ r', Parser.parse env s p = (p, .ok [r']) ∧ boundsOf r' = boundsOf r
      ∧ (r'.hasFrom = true → ip r'.lo.getMask = 2 ^ 128 - 1) ∧ (r'.hasTo = true → ip r'.hi.getMask = 2 ^ 128 - 1) := by
  obtain ⟨s', h1, h2⟩ := C87_text db r h
  rw [hs] at h1
  obtain rfl := Res.ok.inj h1
  obtain ⟨r', j1, j2, j3⟩ := (C86_accepted env p s s s [] _ _ 0 hp (written_trims h2) (written_bare h2 _) h2 (portOf_none env hport hdef)).1 (by
    rintro ⟨_, n, m, e1, e2, e3⟩
    unfold boundsOf at e1 e2
    dsimp only at e1 e2
    split at e1 <;> rename_i h4
    · split at e2 <;> rename_i h5
      · have := h.2 ⟨h4, h5⟩
        rw [Option.some.injEq] at e1 e2
        omega
      · cases e2
    · cases e1)
  have key : ∀ {has : Bool} {a : Addr} {o : Option Nat}, BoundIs has a 0 (decide (([] : Str) ≠ [])) o →
      (if has then some (ip a.getIpv6.addr) else none) = o ∧ (has = true → ip a.getMask = 2 ^ 128 - 1) := by
    intro has a o h
    cases o with
    | none =>
      have h : has = false := h
      rw [h]
      exact ⟨rfl, fun h => nomatch h⟩
    | some n =>
      obtain ⟨k1, k2, _, _, k3⟩ := h
      rw [k1, if_pos rfl, k2]
      exact ⟨rfl, fun _ => k3⟩
  refine ⟨r', j1, ?_, (key j2).2, (key j3).2⟩
  exact Prod.ext (key j2).1 (key j3).1

theorem boundsOf_match (r : Range) (h : Defined r) (hm : NoMask r) (a : Addr) :
    r.matchAddr a = .ok true ↔ InBounds (ip a.getIpv6.addr) (boundsOf r).1 (boundsOf r).2 := by
  have single : ∀ (s : Range) (n : Nat), s.hasFrom = true → s.hasTo = false → ip s.lo.getIpv6.addr = n → ip s.lo.getMask = 2 ^ 128 - 1 →
      (s.matchAddr a = .ok true ↔ ip a.getIpv6.addr = n) := by
    intro s n g1 g2 g3 g4
    rw [network_match (n := n) (k := 128) ⟨g1, g2, g3, by decide, by rw [g4]; decide⟩ a, InNetwork]
    simp
  unfold boundsOf
  cases hf : r.hasFrom <;> cases ht : r.hasTo
  · unfold Defined at h
    rw [hf, ht] at h
    exact absurd h (by decide)
  · have e : r.matchAddr a = r.swapFromTo.matchAddr a := by
      simp [Range.matchAddr, Range.isEmpty, Range.isRange, Range.swapFromTo, hf, ht]
    rw [e]
    exact single r.swapFromTo _ ht hf rfl (hm.2 hf ht)
  · exact single r _ hf ht rfl (hm.1 hf ht)
  · obtain ⟨b, g1, g2⟩ := C24_match_complete r a ⟨hf, ht⟩
    rw [g1]
    have g3 : between (ip a.getIpv6.addr) (fromIp r) (toIp r) ↔ InBounds (ip a.getIpv6.addr) (some (ip r.lo.getIpv6.addr)) (some (ip r.hi.getIpv6.addr)) :=
      Iff.rfl
    show _ ↔ InBounds _ (some _) (some _)
    rw [← g3, ← g2]
    constructor
    · intro h
      injection h
    · rintro rfl
      rfl

theorem fields_intercalate (sep : Char → Bool) (c : Char) (hc : sep c = true) (ts : List Str) (h : ∀ t ∈ ts, ∀ x ∈ t, sep x = false)
    (hne : ts ≠ []) : fields sep ([c].intercalate ts) = ts := by
  induction ts with
  | nil => exact absurd rfl hne
  | cons t ts ih =>
    cases ts with
    | nil =>
      rw [List.intercalate, List.intersperse_singleton, List.flatten_singleton]
      exact fields_self sep t (h t List.mem_cons_self)
    | cons t' ts =>
      have e : [c].intercalate (t :: t' :: ts) = t ++ c :: [c].intercalate (t' :: ts) := by
        simp [List.intercalate]
      rw [e, fields_sep sep t _ c (h t List.mem_cons_self) hc, ih (fun t'' ht => h t'' (List.mem_cons_of_mem _ ht)) (List.cons_ne_nil _ _)]

theorem forall2_left {α β : Type} {R : α → β → Prop} {l : List α} {m : List β} (h : List.Forall₂ R l m) : ∀ a ∈ l, ∃ b ∈ m, R a b := by
  induction h with
  | nil => exact fun _ h => nomatch h
  | cons h1 _ ih =>
    intro a ha
    rcases List.mem_cons.1 ha with rfl | ha
    · exact ⟨_, List.mem_cons_self, h1⟩
    · obtain ⟨b, hb, h2⟩ := ih a ha
      exact ⟨b, List.mem_cons_of_mem _ hb, h2⟩

theorem forall2_right {α β : Type} {R : α → β → Prop} {l : List α} {m : List β} (h : List.Forall₂ R l m) : ∀ b ∈ m, ∃ a ∈ l, R a b := by
  induction h with
  | nil => exact fun _ h => nomatch h
  | cons h1 _ ih =>
    intro b hb
    rcases List.mem_cons.1 hb with rfl | hb
    · exact ⟨_, List.mem_cons_self, h1⟩
    · obtain ⟨a, ha, h2⟩ := ih b hb
      exact ⟨a, List.mem_cons_of_mem _ ha, h2⟩

/-- C87: the text of a list of ranges, separated by commas, is read back without an error as a list which the same addresses match. -/
theorem C87_list (env : ParseEnv) (db : NetDb) (p : Parser) (l : List Range) (s : Str) (hl : ∀ r ∈ l, HasAddresses r ∧ NoMask r)
    (hs : Range.toStrAll db STRING_IP_ADDRESS ",".toList l true = .ok s) (hp : ReadsAccess p)
    (hcomma : p.config.flags .multiAddressesCommas = true) (hmerge : p.config.sort &&& SORT_MERGE = 0) :
    ∃ l', (Parser.parse env s p).2 = .ok l' ∧ (Parser.parse env s p).1.getErrorCount = p.getErrorCount
      ∧ ∀ a : Addr, addressMatchRanges l' a = addressMatchRanges l a := by
  have htexts : ∃ ts : List Str, List.Forall₂ (fun r t => r.toStr db STRING_IP_ADDRESS = .ok t ∧ WrittenRange t (boundsOf r).1 (boundsOf r).2) l ts := by
    clear hs
    induction l with
    | nil => exact ⟨[], .nil⟩
    | cons r l ih =>
      obtain ⟨ts, h1⟩ := ih fun r hr => hl r (List.mem_cons_of_mem _ hr)
      obtain ⟨t, h2⟩ := C87_text db r (hl r List.mem_cons_self).1
      exact ⟨t :: ts, .cons h2 h1⟩
  obtain ⟨ts, hts⟩ := htexts
  have h1 := Ostream.toStrAll_of (db := db) ",".toList (hts.imp fun _ _ h => h.1) true
  rw [hs] at h1
  obtain rfl := Res.ok.inj h1
  rw [if_pos rfl]
  have hlisted : ∀ r t, WrittenRange t (boundsOf r).1 (boundsOf r).2 → Listed t (InBounds · (boundsOf r).1 (boundsOf r).2) :=
    fun r t h => .range (written_bare h _) h
  have hleft : ∀ r ∈ l, ∃ t ∈ ts, WrittenRange t (boundsOf r).1 (boundsOf r).2 := fun r hr => by
    obtain ⟨t, k1, k2⟩ := forall2_left hts r hr
    exact ⟨t, k1, k2.2⟩
  have hright : ∀ t ∈ ts, ∃ r ∈ l, WrittenRange t (boundsOf r).1 (boundsOf r).2 := fun t ht => by
    obtain ⟨r, k1, k2⟩ := forall2_right hts t ht
    exact ⟨r, k1, k2.2⟩
  have hsep : ∀ t ∈ ts, ∀ x ∈ t, separates p x = false := by
    intro t ht
    obtain ⟨r, _, hw⟩ := hright t ht
    exact listed_separates (hlisted r t hw) p
  have hfields : ∀ e, e ≠ [] → (e ∈ fields (separates p) (",".toList.intercalate ts) ↔ e ∈ ts) := by
    intro e he
    by_cases h0 : ts = []
    · subst h0
      have : fields (separates p) (",".toList.intercalate []) = [[]] := rfl
      rw [this, List.mem_singleton]
      simp [he]
    · have := fields_intercalate (separates p) ',' (by rw [separates, hcomma]; rfl) ts hsep h0
      rw [show ",".toList = [','] from rfl, this]
  obtain ⟨l', j1, j2, _, j3⟩ := C86_list env p (",".toList.intercalate ts) hp hmerge (fun e he hne => by
    obtain ⟨r, _, hw⟩ := hright e ((hfields e hne).1 he)
    exact ⟨e, _, written_trims hw, hlisted r e hw⟩)
  refine ⟨l', j1, j2, fun a => ?_⟩
  obtain ⟨b, k1, k2⟩ := j3 a
  obtain ⟨b', k3, k4⟩ := C35_any_range l a
  rw [k1, k3]
  refine congrArg Res.ok (Bool.eq_iff_iff.2 (k2.trans (Iff.trans ?_ k4.symm)))
  constructor
  · rintro ⟨e, he, t, S, g1, g2, g3⟩
    have hne : e ≠ [] := by
      rintro rfl
      have := trims_eq g1
      exact listed_ne g2 this.symm
    obtain ⟨r, hr, hw⟩ := hright e ((hfields e hne).1 he)
    have het : e = t := (trims_eq (written_trims hw)).symm.trans (trims_eq g1)
    subst het
    refine ⟨r, hr, (boundsOf_match r (hl r hr).1.1 (hl r hr).2 a).2 ?_⟩
    exact (C86_unambiguous e S _ g2 (hlisted r e hw) _ (ip_lt _)).1 g3
  · rintro ⟨r, hr, hm⟩
    obtain ⟨t, ht, hw⟩ := hleft r hr
    exact ⟨t, (hfields t (Parser.bounds_ne hw)).2 ht, t, _, written_trims hw, hlisted r t hw,
      (boundsOf_match r (hl r hr).1.1 (hl r hr).2 a).1 hm⟩

/-! ### The default mode -/

/-- A parser which reads everything the default mode prints: ranges, ports and masks, without lookups. -/
structure ReadsAll (env : ParseEnv) (p : Parser) : Prop where
  lookup : p.config.flags .addressLookup = false
  range : p.config.flags .addressRange = true
  mask : p.config.flags .mask = true
  port : p.config.flags .port = true
  protocol : p.config.protocol = -1 ∨ p.config.protocol = IPPROTO_IP ∨ p.config.protocol = IPPROTO_TCP ∨ p.config.protocol = IPPROTO_UDP
  comments : NoComments p
  sort : Unsorted p
  numbers : ∀ n, n ≤ 65535 → env.convert (dec n) = some (n : Int)

/-- C87, as stated for the default mode of `to_string()`: the text of a range with addresses is read back as a range with the same bounds. -/
def C87_claim : Prop :=
  ∀ (env : ParseEnv) (db : NetDb) (p : Parser) (r : Range) (s : Str), HasAddresses r → NoMask r → r.toStr db STRING_IP_ALL = .ok s →
    ReadsAll env p → ∃ r', Parser.parse env s p = (p, .ok [r']) ∧ boundsOf r' = boundsOf r

theorem isV4_text {db : NetDb} {a : Addr} (h : isV4 (ip a.getIpv6.addr)) :
    AddressOf (ntop4 (last4 a.bytes)) (ip a.getIpv6.addr) ∧ ':' ∉ ntop4 (last4 a.bytes) := by
  obtain ⟨s, h1, h2⟩ := printed_address db a
  rw [Addr.toIpv4or6String, if_pos ((isIpv4_iff a).2 h), toIpv4String_address, if_pos ((isIpv4_iff a).2 h)] at h1
  obtain rfl := Res.ok.inj h1
  exact ⟨h2, Inet.colon_not_mem_ntop4 _⟩

/-- C87 in the default mode: a range of IPv4 addresses, of which the last has a mask that is a number of bits, is read back with the same bounds, and
with the port of its last address. Missing: IPv6 addresses, which the default mode puts in brackets. -/
theorem C87_default_mode_partial (env : ParseEnv) (db : NetDb) (p : Parser) (r : Range) (k : Nat) (hp : ReadsAll env p) (hc : Complete r)
    (hle : ip r.lo.getIpv6.addr ≤ ip r.hi.getIpv6.addr) (h4 : isV4 (ip r.lo.getIpv6.addr)) (h4' : isV4 (ip r.hi.getIpv6.addr))
    (hk : 96 ≤ k ∧ k ≤ 128) (hm : ip r.hi.getMask = prefixMask k) :
    ∃ s r', r.toStr db STRING_IP_ALL = .ok s ∧ Parser.parse env s p = (p, .ok [r']) ∧ boundsOf r' = boundsOf r
      ∧ r'.lo.getPort = r.hi.getPort ∧ r'.hi.getPort = r.hi.getPort := by
  obtain ⟨t1, c1⟩ := isV4_text (db := db) h4
  obtain ⟨t2, c2⟩ := isV4_text (db := db) h4'
  have he : r.isEmpty = false := by
    rw [← Bool.not_eq_true, isEmpty_iff]
    rintro ⟨_, h2⟩
    exact absurd h2 (Nat.not_lt.2 hle)
  have hsize : r.hi.getMaskSize = k := (C09_mask_size_iff r.hi k hk.2).2 hm
  have hcompat : r.hi.isMaskIpv4Compatible = true := by
    rw [maskCompatible_iff, hm, prefixMask]
    have h1 : 2 ^ (128 - k) ≤ 2 ^ 32 := Nat.pow_le_pow_right (by omega) (by omega)
    have h2 : 0 < 2 ^ (128 - k) := Nat.pow_pos (by omega)
    omega
  have hlo : r.lo.toIpv4or6String db (STRING_IP_ALL &&& (STRING_IP_ADDRESS ||| STRING_IP_BRACKET_ADDRESS)) = .ok (ntop4 (last4 r.lo.bytes)) := by
    have hv := (isIpv4_iff r.lo).2 h4
    have hmode : STRING_IP_ALL &&& (STRING_IP_ADDRESS ||| STRING_IP_BRACKET_ADDRESS) = STRING_IP_BRACKET_ADDRESS := by decide
    have f1 : anyOf STRING_IP_BRACKET_ADDRESS (STRING_IP_ADDRESS ||| STRING_IP_BRACKET_ADDRESS) = true := by decide
    have f2 : anyOf STRING_IP_BRACKET_ADDRESS STRING_IP_DEFAULT_AS_ASTERISK = false := by decide
    have f3 : anyOf STRING_IP_BRACKET_ADDRESS (STRING_IP_PORT ||| STRING_IP_PORT_NAME) = false := by decide
    have f4 : anyOf STRING_IP_BRACKET_ADDRESS (STRING_IP_MASK ||| STRING_IP_BRACKET_MASK ||| STRING_IP_MASK_AS_ADDRESS ||| STRING_IP_MASK_IF_NEEDED)
        = false := by decide
    rw [hmode, Addr.toIpv4or6String, if_pos hv]
    simp only [Addr.toIpv4String, Addr.addressPart4, Addr.portPart, Addr.maskPart4, Addr.wantsMask, f1, f2, f3, f4, hv]
    simp [last4]
  have hhi : r.hi.toIpv4or6String db STRING_IP_ALL
      = .ok (ntop4 (last4 r.hi.bytes) ++ ':' :: (dec r.hi.getPort ++ '/' :: dec (k - 96))) := by
    have hv := (isIpv4_iff r.hi).2 h4'
    rw [toIpv4or6String_all db r.hi (fun _ => hcompat), addressText, if_pos hv, maskText, if_neg (by omega), if_pos hv,
      intStr_nonneg (by omega), decStr_dec, show (r.hi.getMaskSize - 96).toNat = k - 96 by omega]
  obtain ⟨a, ha⟩ : ∃ a, a = (ntop4 (last4 r.lo.bytes) ++ '-' :: ntop4 (last4 r.hi.bytes)) ++ ':' :: dec r.hi.getPort := ⟨_, rfl⟩
  have htext : r.toStr db STRING_IP_ALL = .ok (a ++ '/' :: dec (k - 96)) := by
    unfold Range.toStr
    rw [he, hc.1, hc.2, hlo, hhi, ha]
    simp
  have hport : r.hi.getPort ≤ 65535 := by
    have : r.hi.getPort < 2 ^ 16 := BitVec.isLt _
    omega
  have hd1 : ∀ c ∈ dec r.hi.getPort, c ∈ "0123456789".toList := fun c hc => dec_digits r.hi.getPort c hc
  have hchars : ∀ c ∈ a, c ∈ "0123456789.:-".toList := by
    intro c hc
    rw [ha] at hc
    have e1 : ∀ c ∈ "0123456789.".toList, c ∈ "0123456789.:-".toList := by decide
    have e2 : ∀ c ∈ "0123456789".toList, c ∈ "0123456789.:-".toList := by decide
    simp only [List.mem_append, List.mem_cons] at hc
    rcases hc with (hc | hc | hc) | hc | hc
    · exact e1 c (ntop4_chars _ c hc)
    · subst hc; decide
    · exact e1 c (ntop4_chars _ c hc)
    · subst hc; decide
    · exact e2 c (hd1 c hc)
  have hne : a ≠ [] := by rw [ha]; simp
  have hnot : ∀ c ∈ a, ∀ x, x ∉ "0123456789.:-".toList → c ≠ x := fun c hc x hx e => hx (e ▸ hchars c hc)
  have hsep : ∀ (q : Parser), ∀ x ∈ a, separates q x = false := by
    intro q x hx
    rw [separates, beq_eq_false_iff_ne.2 (hnot x hx ',' (by decide)), beq_eq_false_iff_ne.2 (hnot x hx ' ' (by decide)),
      beq_eq_false_iff_ne.2 (hnot x hx '\n' (by decide))]
    simp
  have hu : ':' ∉ ntop4 (last4 r.lo.bytes) ++ '-' :: ntop4 (last4 r.hi.bytes) := by
    simp only [List.mem_append, List.mem_cons, not_or]
    exact ⟨c1, by decide, c2⟩
  have hq : ':' ∉ dec r.hi.getPort := fun h => absurd (hd1 _ h) (by decide)
  have htrim : Trims a a := by
    have : ∀ c ∈ a, c ∉ " \t\n\x0b\x0c\r".toList := fun c hc =>
      (by decide : ∀ c ∈ "0123456789.:-".toList, c ∉ " \t\n\x0b\x0c\r".toList) c (hchars c hc)
    exact trims_self (fun c hc => this c (List.mem_of_head? hc)) (fun c hc => this c (List.mem_of_getLast? hc))
  obtain ⟨g1, g2, g3, g4, g5, g6⟩ := forbidMask_agree p
  have hnc : NoComments (forbidMask p) := by
    have := hp.comments
    unfold NoComments at this ⊢
    rw [g5 _ (by decide), g5 _ (by decide)]
    exact this
  have hentry : Entry (PortsAllowed (forbidMask p)) a (ntop4 (last4 r.lo.bytes) ++ '-' :: ntop4 (last4 r.hi.bytes)) (dec r.hi.getPort) := by
    rw [ha]
    exact .port4 hu hq (.inl (by rw [g5 _ (by decide)]; exact hp.port))
  have hdne : dec r.hi.getPort ≠ [] := dec_ne_nil _
  have hpo : PortOf env (forbidMask p).config (dec r.hi.getPort) r.hi.getPort := by
    refine ⟨hport, ?_⟩
    rw [if_pos hdne]
    exact ⟨.inl (by rw [g5 _ (by decide)]; exact hp.port), hp.numbers _ hport⟩
  have hread : ReadsRange (forbidMask p) a :=
    { lookup := by rw [g5 _ (by decide)]; exact hp.lookup
      mask := g2
      range := by rw [g5 _ (by decide)]; exact hp.range
      protocol := hp.protocol
      one := ⟨hne, hsep _, hnc⟩
      sort := by
        have := hp.sort
        unfold Unsorted at this ⊢
        rw [g6]
        exact this }
  obtain ⟨r0, j1, j2, j3⟩ := (C86_accepted env (forbidMask p) a a _ _ _ _ _ hread htrim hentry (.both t1 t2) hpo).1 (by
    rintro ⟨_, n, m, e1, e2, e3⟩
    rw [Option.some.injEq] at e1 e2
    omega)
  obtain ⟨k1, k2, k3, _, _⟩ := j2
  obtain ⟨l1, l2, l3, _, _⟩ := j3
  have hbits : maskBits p a r0 = 32 := by
    rw [maskBits, if_pos]
    refine ⟨⟨?_, ?_, ?_, .inl hp.port⟩, ?_⟩
    · rw [ha, List.count_append, List.count_eq_zero.2 hu, List.count_cons_self, List.count_eq_zero.2 hq]
      decide
    · intro h
      exact hnot _ (List.mem_of_head? h) '[' (by decide) rfl
    · intro h
      exact hnot _ h ']' (by decide) rfl
    · rw [isIpv4_iff]
      show isV4 (ip r0.lo.getIpv6.addr)
      rw [k2]
      exact h4
  have hhas : HasAddress a := by
    refine ⟨hne, .inr ?_, (trims_eq htrim).symm ▸ rfl, fun h => hnot _ h '/' (by decide) rfl⟩
    rw [ha]
    have : ntop4 (last4 r.lo.bytes) ≠ [] := Parser.address_ne t1
    cases h : ntop4 (last4 r.lo.bytes) with
    | nil => exact absurd h this
    | cons c l =>
      intro e
      rw [h] at c1
      simp at e
      exact c1 (by rw [e]; exact List.mem_cons_self)
  have hval : Nat.ofDigitChars 10 (dec (k - 96)) 0 = k - 96 := Nat.ofDigitChars_ten_toDigits
  obtain ⟨l', m1, m2⟩ := (C40_decimal_mask env p a (dec (k - 96)) [r0] hp.mask hhas ⟨hne, hsep p, hp.comments⟩ hp.sort (dec_ne_nil _) (fun c hc => Nat.isDigit_of_mem_toDigits (by decide) (by decide) hc) j1).2 (by
    intro x hx
    rw [List.mem_singleton.1 hx, hbits, hval]
    omega)
  cases m2 with
  | cons h1 h2 =>
    cases h2 with
    | nil =>
      rename_i r'
      obtain ⟨n1, n2, n3, n4, _⟩ := h1
      refine ⟨_, r', htext, m1, ?_, ?_, ?_⟩
      · unfold boundsOf
        rw [n1, n2, n3, k1, l1, hc.1, hc.2, l2]
        rw [show r'.lo.getIpv6 = r0.lo.getIpv6 from n4.1, k2]
      · rw [← k3]
        show r'.lo.getPort = r0.lo.getPort
        unfold Addr.getPort
        rw [n4.1]
      · rw [n3, l3]

/-! ### The default mode does not survive in general -/

/-- Ranges, ports and masks, no lookup. -/
def rangeAllParser : Parser :=
  ParserOp.runAll [(sampleEnv, .setAllow 6 true), (sampleEnv, .setAllow 7 true), (sampleEnv, .setAllow 9 true)] sampleParser

theorem rangeAllParser_reads : ReadsAll sampleEnv rangeAllParser where
  lookup := by decide
  range := by decide
  mask := by decide
  port := by decide
  protocol := by decide
  comments := ⟨by decide, by decide⟩
  sort := by unfold Unsorted; decide
  numbers n _ := sampleConvert_dec n

/-- The range from ::1 to ::5. -/
def sixRange : Range :=
  (Range.default.setFrom (sampleAddr #v[0, 0, 0, 0, 0, 0, 0, 0, 0, 0, 0, 0, 0, 0, 0, 1])).setTo
    (sampleAddr #v[0, 0, 0, 0, 0, 0, 0, 0, 0, 0, 0, 0, 0, 0, 0, 5])

/-- The text of this range is "[::1]-[::5]:0/128", which is refused. -/
theorem C87_claim_fails : ¬ C87_claim := by
  intro h
  obtain ⟨r', h1, _⟩ := h sampleEnv sampleDb rangeAllParser sixRange "[::1]-[::5]:0/128".toList ⟨by unfold Defined; decide, fun _ => by decide⟩
    ⟨fun _ h => absurd h (by decide), fun h => absurd h (by decide)⟩ (by decide +kernel) rangeAllParser_reads
  have h2 : (Parser.parse sampleEnv "[::1]-[::5]:0/128".toList rangeAllParser).2 = .ok [] := by decide +kernel
  rw [h1] at h2
  cases h2

/-! ### Examples -/

/-- The range from 10.0.0.5 to 10.0.1.9. -/
def fourRange : Range := (Range.default.setFrom (sampleV4 10 0 0 5)).setTo (sampleV4 10 0 1 9)

example : ∃ s r', fourRange.toStr sampleDb STRING_IP_ALL = .ok s ∧ Parser.parse sampleEnv s rangeAllParser = (rangeAllParser, .ok [r'])
    ∧ boundsOf r' = (some 0xFFFF0A000005, some 0xFFFF0A000109) := by
  obtain ⟨s, r', h1, h2, h3, _⟩ := C87_default_mode_partial sampleEnv sampleDb rangeAllParser fourRange 128 rangeAllParser_reads ⟨by decide, by decide⟩
    (by decide) (by decide) (by decide) (by decide) (by decide)
  exact ⟨s, r', h1, h2, h3.trans (by decide)⟩

example : ∃ r', Parser.parse sampleEnv "::1-::5".toList rangeParser = (rangeParser, .ok [r']) ∧ boundsOf r' = (some 1, some 5) := by
  obtain ⟨r', h1, h2, _⟩ := C87_roundtrip sampleEnv sampleDb rangeParser sixRange ⟨by unfold Defined; decide, fun _ => by decide⟩ "::1-::5".toList
    (by decide +kernel) (rangeParser_reads _ (by decide)) (by decide) (by decide)
  exact ⟨r', h1, h2.trans (by decide)⟩

end Verif
