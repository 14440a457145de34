import Verif.Lemmas.AddrText
import Verif.Lemmas.Mask
import Verif.Props.RangeSet

/-!
# Properties C21–C23 and C57–C59: the text form of addresses and ranges
-/

namespace Verif

open Spec Inet

/-- Databases for the examples: only TCP is known, port 80 is called `http`. -/
def sampleDb : NetDb where
  protoByNumber p := if p = 6 then .found "tcp".toList else .notFound
  servByPort port _ := if port = 80 then .found "http".toList else .notFound

theorem flags_address : anyOf STRING_IP_ADDRESS (STRING_IP_ADDRESS ||| STRING_IP_BRACKET_ADDRESS) = true
    ∧ anyOf STRING_IP_ADDRESS (STRING_IP_PORT ||| STRING_IP_PORT_NAME) = false
    ∧ anyOf STRING_IP_ADDRESS STRING_IP_DEFAULT_AS_ASTERISK = false
    ∧ anyOf STRING_IP_ADDRESS STRING_IP_DEFAULT_AS_IPV4 = false
    ∧ Addr.includeBrackets STRING_IP_ADDRESS = false
    ∧ anyOf STRING_IP_ADDRESS (STRING_IP_MASK ||| STRING_IP_BRACKET_MASK ||| STRING_IP_MASK_AS_ADDRESS ||| STRING_IP_MASK_IF_NEEDED)
      = false := by decide

theorem toIpv4String_address (db : NetDb) (a : Addr) :
    a.toIpv4String db STRING_IP_ADDRESS = if a.isIpv4 then .ok (ntop4 (last4 a.bytes)) else .throw .invalidState := by
  obtain ⟨f1, f2, f3, f4, f5, f6⟩ := flags_address
  simp only [Addr.toIpv4String, Addr.addressPart4, Addr.portPart, Addr.maskPart4, Addr.wantsMask, f1, f2, f3, f6]
  cases a.isIpv4 <;> simp [last4]

theorem toIpv6String_address (db : NetDb) (a : Addr) :
    a.toIpv6String db STRING_IP_ADDRESS = .ok (if a.isDefault then "::".toList else ntop6 a.bytes) := by
  obtain ⟨f1, f2, f3, f4, f5, f6⟩ := flags_address
  simp only [Addr.toIpv6String, Addr.addressPart6, Addr.portPart, Addr.maskPart6, Addr.wantsMask, f1, f2, f3, f4, f5, f6]
  cases a.isDefault <;> simp [Addr.bracketed]

/-! ## C21 -/

/-- C21: `to_ipv4_string()` of an IPv4 address is its dotted decimal form, which `inet_pton()` reads back. -/
theorem C21_ipv4_text (db : NetDb) (a : Addr) (h : isV4 (ip a.getIpv6.addr)) :
    ∃ s, a.toIpv4String db STRING_IP_ADDRESS = .ok s
      ∧ s = dotted (ip a.getIpv6.addr % 2 ^ 32)
      ∧ ∃ b, pton4 s = some b ∧ a.getIpv4 = .ok { family := 2, port := a.getIpv6.port, addr := b, zero := Vector.replicate 8 0 } := by
  have hv : a.isIpv4 = true := (isIpv4_iff a).2 h
  refine ⟨ntop4 (last4 a.bytes), ?_, ?_, last4 a.bytes, pton4_ntop4 _, ?_⟩
  · rw [toIpv4String_address, if_pos hv]
  · rw [ntop4_dotted, ip4_last4]; rfl
  · rw [Addr.getIpv4, if_pos hv]; rfl

/-- C21: two IPv4 addresses which print the same are the same. -/
theorem C21_ipv4_text_injective (db : NetDb) (a b : Addr) (ha : isV4 (ip a.getIpv6.addr)) (hb : isV4 (ip b.getIpv6.addr))
    (h : a.toIpv4String db STRING_IP_ADDRESS = b.toIpv4String db STRING_IP_ADDRESS) : ip a.getIpv6.addr = ip b.getIpv6.addr := by
  rw [toIpv4String_address, toIpv4String_address, if_pos ((isIpv4_iff a).2 ha), if_pos ((isIpv4_iff b).2 hb)] at h
  have h1 := congrArg pton4 (Res.ok.inj h)
  rw [pton4_ntop4, pton4_ntop4] at h1
  exact congrArg ip (last4_inj ha hb (Option.some.inj h1))

/-- C21: any other address is refused. -/
theorem C21_other_refused (db : NetDb) (a : Addr) (h : ¬ isV4 (ip a.getIpv6.addr)) :
    a.toIpv4String db STRING_IP_ADDRESS = .throw .invalidState := by
  rw [toIpv4String_address, if_neg (fun hv => h ((isIpv4_iff a).1 hv))]

/-- C21: the text and its terminator fit the buffer given to `inet_ntop()` (`INET_ADDRSTRLEN + 1` bytes), so the call does
not fail. -/
theorem C21_buffer_large_enough (b : Bytes4) : (ntop4 b).length + 1 ≤ 16 := by
  have := ntop4_length b; omega

example : (sampleV4 192 168 0 10).toIpv4String sampleDb STRING_IP_ADDRESS = .ok "192.168.0.10".toList
    ∧ isV4 (ip (sampleV4 192 168 0 10).getIpv6.addr) := by decide +kernel

/-! ## C22 -/

/-- C22: `to_ipv6_string()` of an IPv6 address is a text which denotes it, and `inet_pton()` reads the same bytes back. -/
theorem C22_ipv6_text (db : NetDb) (a : Addr) (h : ¬ isV4 (ip a.getIpv6.addr)) :
    ∃ s, a.toIpv6String db STRING_IP_ADDRESS = .ok s ∧ Text6 (ip a.getIpv6.addr) s ∧ pton6 s = some a.getIpv6.addr := by
  rw [toIpv6String_address]
  by_cases hd : a.isDefault = true
  · have h0 : ip a.bytes = 0 := by
      rcases (isDefault_iff a).1 hd with h' | h'
      · exact absurd (by rw [show ip a.getIpv6.addr = ip a.bytes from rfl, h']; decide) h
      · exact h'
    rw [if_pos hd]
    refine ⟨_, rfl, ?_, ?_⟩
    · rw [show ip a.getIpv6.addr = 0 from h0]
      refine .zip [] [] 8 (by omega) (by decide) (fun pre' z' post' e => ⟨?_, fun _ => Nat.zero_le _⟩) (by decide) (by decide)
      have := congrArg List.length e
      simp [hextets] at this
      omega
    · have hb : a.getIpv6.addr = Vector.replicate 16 0 := ip_inj (by rw [show ip a.getIpv6.addr = 0 from h0]; decide)
      rw [hb]
      decide +kernel
  · rw [if_neg hd]
    exact ⟨_, rfl, ntop6_text _, pton6_ntop6 _⟩

/-- C22: the text is the only canonical one. -/
theorem C22_canonical_unique {v : Nat} {s t : Str} (hs : Text6 v s) (ht : Text6 v t) : s = t := by
  have two : ∀ {ws pre post : List Nat} {z : Nat}, 2 ≤ z → ws = pre ++ List.replicate z 0 ++ post → ∃ post', ws = pre ++ 0 :: 0 :: post' := by
    intro ws pre post z hz h
    obtain ⟨k, rfl⟩ : ∃ k, z = k + 2 := ⟨z - 2, by omega⟩
    exact ⟨List.replicate k 0 ++ post, by rw [h]; simp [List.replicate_succ]⟩
  have big : ∀ {v}, v < 2 ^ 32 → hextets v = [] ++ 0 :: 0 :: (hextets v).drop 2 := by
    intro v hv
    unfold hextets
    simp only [List.nil_append, List.drop, List.cons.injEq, and_true, true_and]
    omega
  have big4 : ∀ {v}, isV4 v → hextets v = [] ++ 0 :: 0 :: (hextets v).drop 2 := by
    intro v hv
    rw [isV4_iff_div] at hv
    unfold hextets
    simp only [List.nil_append, List.drop, List.cons.injEq, and_true, true_and]
    omega
  have cross : ∀ {v}, v < 2 ^ 32 → ¬ isV4 v := by
    intro v h hv
    rw [isV4_iff_div] at hv
    omega
  cases hs with
  | full h =>
    cases ht with
    | full _ => rfl
    | zip pre post z hz e _ _ _ =>
      obtain ⟨post', e'⟩ := two hz e
      exact absurd e' (h _ _)
    | compat h' => exact absurd (big h'.2) (h _ _)
    | mapped h' => exact absurd (big4 h') (h _ _)
  | zip pre post z hz e best hc hm =>
    cases ht with
    | full h =>
      obtain ⟨post', e'⟩ := two hz e
      exact absurd e' (h _ _)
    | zip pre' post' z' hz' e' best' _ _ =>
      obtain ⟨l1, l2⟩ := best _ _ _ e'
      obtain ⟨l3, l4⟩ := best' _ _ _ e
      obtain rfl : z = z' := by omega
      have hl : pre.length = pre'.length := Nat.le_antisymm (l2 rfl) (l4 rfl)
      rw [e', List.append_assoc, List.append_assoc] at e
      obtain ⟨hp, e2⟩ := List.append_inj e hl.symm
      obtain rfl := List.append_cancel_left e2
      rw [hp]
    | compat h' => exact absurd h' hc
    | mapped h' => exact absurd h' hm
  | compat h =>
    cases ht with
    | full h' => exact absurd (big h.2) (h' _ _)
    | zip pre post z hz e best hc hm => exact absurd h hc
    | compat _ => rfl
    | mapped h' => exact absurd h' (cross h.2)
  | mapped h =>
    cases ht with
    | full h' => exact absurd (big4 h) (h' _ _)
    | zip pre post z hz e best hc hm => exact absurd h hm
    | compat h' => exact absurd h (cross h'.2)
    | mapped _ => rfl

/-- C22: two IPv6 addresses which print the same are the same. -/
theorem C22_ipv6_text_injective (db : NetDb) (a b : Addr) (ha : ¬ isV4 (ip a.getIpv6.addr)) (hb : ¬ isV4 (ip b.getIpv6.addr))
    (h : a.toIpv6String db STRING_IP_ADDRESS = b.toIpv6String db STRING_IP_ADDRESS) : ip a.getIpv6.addr = ip b.getIpv6.addr := by
  obtain ⟨s, h1, _, h2⟩ := C22_ipv6_text db a ha
  obtain ⟨t, h3, _, h4⟩ := C22_ipv6_text db b hb
  rw [h1, h3] at h
  rw [Res.ok.inj h, h4] at h2
  rw [Option.some.inj h2]

/-- C22: every sixteen bytes, IPv4-mapped ones included, survive `inet_ntop()` and `inet_pton()`. -/
theorem C22_bytes_roundtrip (b : Bytes16) : pton6 (ntop6 b) = some b ∧ Text6 (ip b) (ntop6 b) := ⟨pton6_ntop6 b, ntop6_text b⟩

/-- C22: the text and its terminator fit the buffer given to `inet_ntop()` (`INET6_ADDRSTRLEN + 1` bytes). -/
theorem C22_buffer_large_enough (b : Bytes16) : (ntop6 b).length + 1 ≤ 46 := by
  have := ntop6_length b; omega

example : (sampleAddr #v[0x20, 0x01, 0x0d, 0xb8, 0, 0, 0, 0, 0, 0, 0, 0, 0, 0, 0, 1]).toIpv6String sampleDb STRING_IP_ADDRESS
      = .ok "2001:db8::1".toList
    ∧ (sampleAddr #v[0, 0, 0, 1, 0, 0, 0, 0, 0, 5, 0, 0, 0, 0, 0, 0]).toIpv6String sampleDb STRING_IP_ADDRESS
      = .ok "0:1:0:0:5::".toList := by decide +kernel

/-! ## C23 -/

/-- What `inet_pton()` reads from a text: the IPv4 form when there is no colon, the IPv6 form otherwise. -/
def readText (s : Str) : Option Nat :=
  if ':' ∈ s then (pton6 s).map ip else (pton4 s).map (fun b => 0xffff * 2 ^ 32 + ip4 b)

/-- C23, full statement: both functions never throw and what they print is read back. -/
def C23_claim : Prop :=
  ∀ (db : NetDb) (a : Addr),
    (∃ s, a.toIpv4or6String db STRING_IP_ADDRESS = .ok s ∧ readText s = some (ip a.getIpv6.addr))
      ∧ (∃ s, a.toIpv6String db STRING_IP_ADDRESS = .ok s ∧ readText s = some (ip a.getIpv6.addr))

/-- C23: `to_ipv6_string()` prints `::` for the IPv4 address 0.0.0.0, which is another address. -/
theorem C23_claim_fails : ¬ C23_claim := by
  intro h
  obtain ⟨s, h1, h2⟩ := (h sampleDb (sampleV4 0 0 0 0)).2
  have e : (sampleV4 0 0 0 0).toIpv6String sampleDb STRING_IP_ADDRESS = .ok "::".toList := by decide +kernel
  rw [e] at h1
  obtain rfl := Res.ok.inj h1
  exact absurd h2 (by decide +kernel)

theorem ip_of_v4 (b : Bytes16) (h : isV4 (ip b)) : 0xffff * 2 ^ 32 + ip4 (last4 b) = ip b := by
  rw [ip4_last4]
  rw [isV4_iff_div] at h
  omega

/-- C23: `to_ipv4or6_string()` never fails and its text identifies the address, IPv4 or not. -/
theorem C23_ipv4or6_text_partial (db : NetDb) (a : Addr) :
    ∃ s, a.toIpv4or6String db STRING_IP_ADDRESS = .ok s ∧ readText s = some (ip a.getIpv6.addr)
      ∧ (':' ∈ s ↔ ¬ isV4 (ip a.getIpv6.addr)) := by
  by_cases h : isV4 (ip a.getIpv6.addr)
  · have hv : a.isIpv4 = true := (isIpv4_iff a).2 h
    refine ⟨ntop4 (last4 a.bytes), by rw [Addr.toIpv4or6String, if_pos hv, toIpv4String_address, if_pos hv], ?_, ?_⟩
    · rw [readText, if_neg (colon_not_mem_ntop4 _), pton4_ntop4, Option.map_some]
      exact congrArg some (ip_of_v4 a.bytes h)
    · exact ⟨fun hc => absurd hc (colon_not_mem_ntop4 _), fun hn => absurd h hn⟩
  · have hv : ¬ a.isIpv4 = true := fun h' => h ((isIpv4_iff a).1 h')
    obtain ⟨s, h1, _, h2⟩ := C22_ipv6_text db a h
    have hc : ':' ∈ s := by
      rw [toIpv6String_address] at h1
      rw [← Res.ok.inj h1]
      split
      · decide
      · exact colon_mem_ntop6 _
    refine ⟨s, by rw [Addr.toIpv4or6String, if_neg hv, h1], ?_, ⟨fun _ => h, fun _ => hc⟩⟩
    rw [readText, if_pos hc, h2]; rfl

/-- C23: `to_ipv6_string()` never fails; its text is read back exactly when the address is not the IPv4 address 0.0.0.0. -/
theorem C23_ipv6_text_partial (db : NetDb) (a : Addr) :
    ∃ s, a.toIpv6String db STRING_IP_ADDRESS = .ok s
      ∧ (readText s = some (ip a.getIpv6.addr) ↔ ip a.getIpv6.addr ≠ v4 0 0 0 0) := by
  by_cases hd : a.isDefault = true
  · refine ⟨"::".toList, by rw [toIpv6String_address, if_pos hd], ?_⟩
    rw [show readText "::".toList = some 0 by decide +kernel]
    rcases (isDefault_iff a).1 hd with h' | h'
    · rw [show ip a.getIpv6.addr = _ from h']; simp [v4]
    · rw [show ip a.getIpv6.addr = _ from h']; simp [v4]
  · refine ⟨ntop6 a.bytes, by rw [toIpv6String_address, if_neg hd], ?_⟩
    rw [readText, if_pos (colon_mem_ntop6 _), pton6_ntop6]
    refine ⟨fun _ h0 => hd ((isDefault_iff a).2 (Or.inl h0)), fun _ => rfl⟩

/-- C23: the text of `to_ipv4or6_string()` distinguishes all the addresses. -/
theorem C23_injective (db : NetDb) (a b : Addr)
    (h : a.toIpv4or6String db STRING_IP_ADDRESS = b.toIpv4or6String db STRING_IP_ADDRESS) :
    ip a.getIpv6.addr = ip b.getIpv6.addr := by
  obtain ⟨s, h1, h2, _⟩ := C23_ipv4or6_text_partial db a
  obtain ⟨t, h3, h4, _⟩ := C23_ipv4or6_text_partial db b
  rw [h1, h3] at h
  rw [Res.ok.inj h, h4] at h2
  exact (Option.some.inj h2).symm

example : (sampleV4 0 0 0 0).toIpv4or6String sampleDb STRING_IP_ADDRESS = .ok "0.0.0.0".toList
    ∧ (sampleAddr (Vector.replicate 16 0)).toIpv4or6String sampleDb STRING_IP_ADDRESS = .ok "::".toList
    ∧ (sampleV4 1 2 3 4).toIpv6String sampleDb STRING_IP_ADDRESS = .ok "::ffff:1.2.3.4".toList := by decide +kernel

/-! ## C57: printing never crashes -/

/-- C57, full statement: with any mode, printing either succeeds or throws. -/
def C57_claim : Prop := ∀ (db : NetDb) (mode : BitVec 32) (a : Addr) (w : UB), a.toIpv4or6String db mode ≠ .ub w

/-- C57: when the protocol is not in `/etc/protocols`, printing the name of the port constructs a string from `nullptr`. -/
theorem C57_claim_fails : ¬ C57_claim := by
  intro h
  exact h sampleDb STRING_IP_PORT_NAME { sampleV4 1 2 3 4 with protocol := 17 } .nullString (by decide +kernel)

theorem portPart_ub (db : NetDb) (mode : BitVec 32) (a : Addr) :
    (∃ w, a.portPart db mode = .ub w) ↔ anyOf mode STRING_IP_PORT_NAME = true ∧ db.protoByNumber a.protocol = .notFound := by
  have hsub : anyOf mode STRING_IP_PORT_NAME = true → anyOf mode (STRING_IP_PORT ||| STRING_IP_PORT_NAME) = true := by
    unfold anyOf STRING_IP_PORT STRING_IP_PORT_NAME
    intro h
    simp only [bne_iff_ne, ne_eq] at h ⊢
    intro h'
    apply h
    have := congrArg (fun x => x &&& 8) h'
    simp only [BitVec.and_assoc] at this
    simpa using this
  unfold Addr.portPart
  by_cases h1 : anyOf mode STRING_IP_PORT_NAME = true
  · rw [if_pos (hsub h1), if_pos h1]
    simp only [Addr.getPortName, Addr.getProtocolName]
    cases h2 : db.protoByNumber a.protocol with
    | notFound => simp [h1]
    | found n =>
      simp only [Res.bind_ok]
      cases db.servByPort a.getPort (cstr n) <;> simp <;> (try split) <;> simp
    | error =>
      simp only [Res.bind_ok]
      cases db.servByPort a.getPort (cstr []) <;> simp <;> (try split) <;> simp
  · rw [if_neg h1]
    split <;> simp [h1]

theorem portPart_no_throw (db : NetDb) (mode : BitVec 32) (a : Addr) (e : Exc) : a.portPart db mode ≠ .throw e := by
  unfold Addr.portPart
  by_cases h0 : anyOf mode (STRING_IP_PORT ||| STRING_IP_PORT_NAME) = true
  · rw [if_pos h0]
    by_cases h1 : anyOf mode STRING_IP_PORT_NAME = true
    · rw [if_pos h1]
      simp only [Addr.getPortName, Addr.getProtocolName]
      cases db.protoByNumber a.protocol with
      | notFound => simp
      | found n =>
        simp only [Res.bind_ok]
        cases db.servByPort a.getPort (cstr n) <;> simp <;> (try split) <;> simp
      | error =>
        simp only [Res.bind_ok]
        cases db.servByPort a.getPort (cstr []) <;> simp <;> (try split) <;> simp
    · rw [if_neg h1]; simp
  · rw [if_neg h0]; simp

theorem portPart_cases (db : NetDb) (mode : BitVec 32) (a : Addr) :
    (∃ s, a.portPart db mode = .ok s) ∨ (∃ w, a.portPart db mode = .ub w) := by
  cases h : a.portPart db mode with
  | ok s => exact Or.inl ⟨s, rfl⟩
  | throw e => exact absurd h (portPart_no_throw db mode a e)
  | ub w => exact Or.inr ⟨w, rfl⟩

/-- C57: printing is undefined exactly when the name of the port is asked for and the protocol has no name. -/
theorem C57_undefined_iff_partial (db : NetDb) (mode : BitVec 32) (a : Addr) :
    (∃ w, a.toIpv4or6String db mode = .ub w)
      ↔ anyOf mode STRING_IP_PORT_NAME = true ∧ db.protoByNumber a.protocol = .notFound := by
  rw [← portPart_ub]
  unfold Addr.toIpv4or6String
  by_cases hv : a.isIpv4 = true
  · rw [if_pos hv]
    have ha : ∃ s, a.addressPart4 mode = .ok s := by
      unfold Addr.addressPart4
      rw [if_pos hv]
      split
      · split <;> exact ⟨_, rfl⟩
      · exact ⟨_, rfl⟩
    obtain ⟨s, hs⟩ := ha
    simp only [Addr.toIpv4String, hs, Res.bind_ok]
    rcases portPart_cases db mode a with ⟨t, ht⟩ | ⟨w, hw⟩
    · simp only [ht, Res.bind_ok]
      unfold Addr.maskPart4
      split
      · split <;> simp
      · simp
    · simp [hw]
  · rw [if_neg hv]
    simp only [Addr.toIpv6String]
    rcases portPart_cases db mode a with ⟨t, ht⟩ | ⟨w, hw⟩
    · simp [ht]
    · simp [hw]

theorem maskCompatible_iff (a : Addr) : a.isMaskIpv4Compatible = true ↔ ip a.getMask / 2 ^ 32 = 2 ^ 96 - 1 := by
  obtain ⟨b0, b1, b2, b3, b4, b5, b6, b7, b8, b9, b10, b11, b12, b13, b14, b15, hb⟩ := bytes16_cases a.mask
  have hs := (value_split [b0, b1, b2, b3, b4, b5, b6, b7, b8, b9, b10, b11] [b12, b13, b14, b15]).1
  have hi : ip a.getMask / 2 ^ 32 = value [b0, b1, b2, b3, b4, b5, b6, b7, b8, b9, b10, b11] := by
    rw [show (2 : Nat) ^ 32 = 256 ^ 4 by decide, Addr.getMask, hb]
    exact hs
  rw [hi, show 2 ^ 96 - 1 = value (List.replicate 12 255) by decide]
  constructor
  · intro h
    have : [b0, b1, b2, b3, b4, b5, b6, b7, b8, b9, b10, b11] = List.replicate 12 (255 : Byte) := by
      rw [Addr.isMaskIpv4Compatible, hb] at h
      apply List.eq_replicate_iff.2
      refine ⟨rfl, fun x hx => ?_⟩
      have := List.all_eq_true.1 h x hx
      simpa using this
    rw [this]
  · intro h
    have := value_inj (by simp) h
    rw [Addr.isMaskIpv4Compatible, hb]
    have e : (#v[b0, b1, b2, b3, b4, b5, b6, b7, b8, b9, b10, b11, b12, b13, b14, b15] : Bytes16).toList.take 12
      = [b0, b1, b2, b3, b4, b5, b6, b7, b8, b9, b10, b11] := rfl
    rw [e, this]
    decide

/-- C57: the only exception is the one about a mask which is not one of an IPv4 address. -/
theorem C57_throws_iff (db : NetDb) (mode : BitVec 32) (a : Addr) (e : Exc) :
    a.toIpv4or6String db mode = .throw e ↔
      e = .unexpectedMask ∧ isV4 (ip a.getIpv6.addr) ∧ ¬ (anyOf mode STRING_IP_PORT_NAME = true ∧ db.protoByNumber a.protocol = .notFound)
        ∧ a.wantsMask mode = true ∧ ¬ ip a.getMask / 2 ^ 32 = 2 ^ 96 - 1 := by
  have hmask := maskCompatible_iff a
  rw [← portPart_ub, ← not_congr hmask, show isV4 (ip a.getIpv6.addr) ↔ a.isIpv4 = true from (isIpv4_iff a).symm]
  unfold Addr.toIpv4or6String
  by_cases hv : a.isIpv4 = true
  · rw [if_pos hv]
    have ha : ∃ s, a.addressPart4 mode = .ok s := by
      unfold Addr.addressPart4
      rw [if_pos hv]
      split
      · split <;> exact ⟨_, rfl⟩
      · exact ⟨_, rfl⟩
    obtain ⟨s, hs⟩ := ha
    simp only [Addr.toIpv4String, hs, Res.bind_ok, hv, true_and]
    rcases portPart_cases db mode a with ⟨t, ht⟩ | ⟨w, hw⟩
    · simp only [ht, Res.bind_ok]
      unfold Addr.maskPart4
      by_cases h1 : a.wantsMask mode = true
      · rw [if_pos h1]
        by_cases h2 : a.isMaskIpv4Compatible = true
        · rw [if_pos h2]; simp [h1, h2]
        · rw [if_neg h2]; simp [h1, h2, eq_comm]
      · rw [if_neg h1]; simp [h1]
    · simp [hw]
  · rw [if_neg hv]
    simp only [Addr.toIpv6String]
    rcases portPart_cases db mode a with ⟨t, ht⟩ | ⟨w, hw⟩
    · simp [ht, hv]
    · simp [hw]

example : Addr.toIpv4or6String sampleDb (STRING_IP_ADDRESS ||| STRING_IP_PORT_NAME) (({ sampleV4 1 2 3 4 with protocol := 6 }).setPort 80).1
      = .ok "1.2.3.4:http".toList
    ∧ Addr.toIpv4or6String sampleDb STRING_IP_ALL { sampleV4 1 2 3 4 with mask := Vector.replicate 16 0x80 }
      = .throw .unexpectedMask := by decide +kernel

/-! ## C58: the text of an address with its port and its mask -/

theorem flags_all : anyOf STRING_IP_ALL (STRING_IP_ADDRESS ||| STRING_IP_BRACKET_ADDRESS) = true
    ∧ anyOf STRING_IP_ALL (STRING_IP_PORT ||| STRING_IP_PORT_NAME) = true
    ∧ anyOf STRING_IP_ALL STRING_IP_PORT_NAME = false
    ∧ anyOf STRING_IP_ALL STRING_IP_DEFAULT_AS_ASTERISK = false
    ∧ anyOf STRING_IP_ALL STRING_IP_DEFAULT_AS_IPV4 = false
    ∧ anyOf STRING_IP_ALL STRING_IP_MASK_IF_NEEDED = false
    ∧ anyOf STRING_IP_ALL STRING_IP_MASK_AS_ADDRESS = false
    ∧ Addr.includeBrackets STRING_IP_ALL = true
    ∧ anyOf STRING_IP_ALL (STRING_IP_MASK ||| STRING_IP_BRACKET_MASK ||| STRING_IP_MASK_AS_ADDRESS ||| STRING_IP_MASK_IF_NEEDED)
      = true
    ∧ Addr.maskSlash STRING_IP_ALL = ['/'] := by decide

/-- The text of an address as printed between brackets (IPv6) or alone (IPv4). -/
def addressText (a : Addr) : Str :=
  if a.isIpv4 then ntop4 (last4 a.bytes) else '[' :: (if a.isDefault then "::".toList else ntop6 a.bytes) ++ [']']

/-- The text of the mask in mode `STRING_IP_ALL`. -/
def maskText (a : Addr) : Str :=
  if a.getMaskSize = -1 then (if a.isIpv4 then ntop4 (last4 a.mask) else '[' :: ntop6 a.mask ++ [']'])
  else intStr (if a.isIpv4 then a.getMaskSize - 96 else a.getMaskSize)

theorem toIpv4or6String_all (db : NetDb) (a : Addr) (h : a.isIpv4 = true → a.isMaskIpv4Compatible = true) :
    a.toIpv4or6String db STRING_IP_ALL = .ok (addressText a ++ ':' :: (dec a.getPort ++ '/' :: maskText a)) := by
  obtain ⟨f1, f2, f3, f4, f5, f6, f7, f8, f9, f10⟩ := flags_all
  by_cases hv : a.isIpv4 = true
  · simp only [Addr.toIpv4or6String, Addr.toIpv4String, Addr.addressPart4, Addr.portPart, Addr.maskPart4, Addr.wantsMask,
      Addr.maskBits, f1, f2, f3, f4, f6, f7, f9, f10, hv, h hv, addressText, maskText, Addr.getStrPort, decStr_dec]
    simp [last4]
  · simp only [Bool.not_eq_true] at hv
    simp only [Addr.toIpv4or6String, Addr.toIpv6String, Addr.addressPart6, Addr.portPart, Addr.maskPart6, Addr.wantsMask,
      Addr.maskBits, Addr.bracketed, f1, f2, f3, f4, f5, f6, f7, f8, f9, f10, hv, addressText, maskText, Addr.getStrPort, decStr_dec]
    by_cases hd : a.isDefault = true <;> simp [hd]

theorem intStr_nonneg {n : Int} (h : 0 ≤ n) : intStr n = decStr n.toNat := by
  rw [intStr, if_neg (by omega)]
  congr 1; omega

theorem addressText_no_slash (a : Addr) : '/' ∉ addressText a := by
  unfold addressText
  split
  · intro h; exact absurd (ntop4_chars _ _ h) (by decide)
  · intro h
    simp only [List.cons_append, List.mem_cons, List.mem_append, List.not_mem_nil, or_false] at h
    rcases h with h | h | h
    · exact absurd h (by decide)
    · split at h
      · exact absurd h (by decide)
      · exact absurd (ntop6_chars _ _ h) (by decide)
    · exact absurd h (by decide)

theorem dec_no (n : Nat) (c : Char) (hc : c ∉ "0123456789".toList) : c ∉ dec n := by
  intro h
  rw [← decStr_dec] at h
  exact hc (decStr_chars n c h)

/-- The last colon of `address:port`: the port has none. -/
theorem last_colon {s t u v : Str} (hu : ':' ∉ u) (hv : ':' ∉ v) (h : s ++ ':' :: u = t ++ ':' :: v) : s = t ∧ u = v := by
  have h' := congrArg List.reverse h
  simp only [List.reverse_append, List.reverse_cons, List.append_assoc, List.singleton_append] at h'
  obtain ⟨h1, h2⟩ := cut_inj (by simpa using hu) (by simpa using hv) h'
  exact ⟨List.reverse_inj.1 h2, List.reverse_inj.1 h1⟩

theorem isIpv4_eq_of_text {a b : Addr} (h : addressText a = addressText b) : a.isIpv4 = b.isIpv4 := by
  have hc : ∀ x : Addr, x.isIpv4 = !decide ('[' ∈ addressText x) := by
    intro x
    unfold addressText
    cases hv : x.isIpv4 with
    | true =>
      have : '[' ∉ ntop4 (last4 x.bytes) := fun h => absurd (ntop4_chars _ _ h) (by decide)
      simp [this]
    | false => simp
  rw [hc a, hc b, h]

theorem bytes_eq_of_text {a b : Addr} (h : addressText a = addressText b) : a.bytes = b.bytes := by
  have hv := isIpv4_eq_of_text h
  unfold addressText at h
  rw [hv] at h
  cases hb : b.isIpv4 with
  | true =>
    rw [hb] at h hv
    have h1 := congrArg pton4 h
    simp only [↓reduceIte, pton4_ntop4, Option.some.injEq] at h1
    exact last4_inj ((isIpv4_iff a).1 hv) ((isIpv4_iff b).1 hb) h1
  | false =>
    rw [hb] at h hv
    simp only [Bool.false_eq_true, ↓reduceIte, List.cons_append, List.cons.injEq, true_and, List.append_cancel_right_eq] at h
    have key : ∀ x : Addr, x.isIpv4 = false → pton6 (if x.isDefault = true then "::".toList else ntop6 x.bytes) = some x.bytes := by
      intro x hx
      obtain ⟨s, h1, _, h2⟩ := C22_ipv6_text sampleDb x (fun h' => by rw [(isIpv4_iff x).2 h'] at hx; exact nomatch hx)
      rw [toIpv6String_address] at h1
      rw [Res.ok.inj h1]; exact h2
    have h1 := congrArg pton6 h
    rw [key a hv, key b hb] at h1
    exact Option.some.inj h1

theorem maskSize_v4 {a : Addr} {n : Nat} (hn : n ≤ 128) (h : ip a.mask / 2 ^ 32 = 2 ^ 96 - 1) (hm : ip a.mask = prefixMask n) :
    96 ≤ n := by
  rcases Nat.lt_or_ge n 96 with hlt | hge
  · exfalso
    rw [hm, prefixMask] at h
    have h1 : 2 ^ 33 ≤ 2 ^ (128 - n) := Nat.pow_le_pow_right (by omega) (by omega)
    omega
  · exact hge

theorem ntop4_not_decStr (b : Bytes4) (n : Nat) : ntop4 b ≠ decStr n := by
  intro h
  have h1 : '.' ∈ ntop4 b := by simp [ntop4]
  rw [h] at h1
  exact absurd (decStr_chars n _ h1) (by decide)

theorem bracket_not_decStr (s : Str) (n : Nat) : '[' :: s ≠ decStr n := by
  intro h
  have h1 : '[' ∈ decStr n := by rw [← h]; simp
  exact absurd (decStr_chars n _ h1) (by decide)

theorem mask_eq_of_text {a b : Addr} (hv : a.isIpv4 = b.isIpv4) (ha : a.isIpv4 = true → ip a.mask / 2 ^ 32 = 2 ^ 96 - 1)
    (hb : b.isIpv4 = true → ip b.mask / 2 ^ 32 = 2 ^ 96 - 1) (h : maskText a = maskText b) : a.mask = b.mask := by
  apply ip_inj
  unfold maskText at h
  rw [hv] at h ha
  cases h4 : b.isIpv4 with
  | true =>
    rw [h4] at h
    have ha := ha h4
    have hb := hb h4
    simp only [↓reduceIte] at h
    rcases getMaskSize_cases a with ⟨sa, _⟩ | ⟨n, hn, ma, sa⟩ <;> rcases getMaskSize_cases b with ⟨sb, _⟩ | ⟨m, hm, mb, sb⟩
    · rw [if_pos sa, if_pos sb] at h
      have h1 := congrArg pton4 h
      simp only [pton4_ntop4, Option.some.injEq] at h1
      have h2 := ip4_last4 a.mask
      have h3 := ip4_last4 b.mask
      rw [h1, h3] at h2
      omega
    · have := maskSize_v4 hm hb mb
      rw [if_pos sa, if_neg (by omega), intStr_nonneg (by omega)] at h
      exact absurd h (ntop4_not_decStr _ _)
    · have := maskSize_v4 hn ha ma
      rw [if_neg (by omega), if_pos sb, intStr_nonneg (by omega)] at h
      exact absurd h.symm (ntop4_not_decStr _ _)
    · have h1 := maskSize_v4 hm hb mb
      have h2 := maskSize_v4 hn ha ma
      rw [if_neg (by omega), if_neg (by omega), intStr_nonneg (by omega), intStr_nonneg (by omega)] at h
      have h3 := decStr_inj h
      obtain rfl : n = m := by omega
      rw [ma, mb]
  | false =>
    rw [h4] at h
    simp only [Bool.false_eq_true, ↓reduceIte] at h
    rcases getMaskSize_cases a with ⟨sa, _⟩ | ⟨n, hn, ma, sa⟩ <;> rcases getMaskSize_cases b with ⟨sb, _⟩ | ⟨m, hm, mb, sb⟩
    · rw [if_pos sa, if_pos sb] at h
      simp only [List.cons_append, List.cons.injEq, true_and, List.append_cancel_right_eq] at h
      have h1 := congrArg pton6 h
      simp only [pton6_ntop6, Option.some.injEq] at h1
      rw [h1]
    · rw [if_pos sa, if_neg (by omega), intStr_nonneg (by omega)] at h
      exact absurd h (bracket_not_decStr _ _)
    · rw [if_neg (by omega), if_pos sb, intStr_nonneg (by omega)] at h
      exact absurd h.symm (bracket_not_decStr _ _)
    · rw [if_neg (by omega), if_neg (by omega), intStr_nonneg (by omega), intStr_nonneg (by omega)] at h
      have h3 := decStr_inj h
      obtain rfl : n = m := by omega
      rw [ma, mb]

/-- C58: the text with everything identifies the address, the port and the mask. -/
theorem C58_all_injective (db : NetDb) (a b : Addr) (s : Str) (ha : a.toIpv4or6String db STRING_IP_ALL = .ok s)
    (hb : b.toIpv4or6String db STRING_IP_ALL = .ok s) :
    ip a.getIpv6.addr = ip b.getIpv6.addr ∧ a.getPort = b.getPort ∧ ip a.getMask = ip b.getMask := by
  have compat : ∀ x : Addr, x.toIpv4or6String db STRING_IP_ALL = .ok s → x.isIpv4 = true → x.isMaskIpv4Compatible = true := by
    intro x hx hv
    apply Decidable.byContradiction
    intro hn
    have hw : x.wantsMask STRING_IP_ALL = true := by
      obtain ⟨_, _, _, _, _, f6, _, _, f9, _⟩ := flags_all
      simp [Addr.wantsMask, f6, f9]
    have hne : ¬ (anyOf STRING_IP_ALL STRING_IP_PORT_NAME = true ∧ db.protoByNumber x.protocol = .notFound) := by
      rw [flags_all.2.2.1]; simp
    have := (C57_throws_iff db STRING_IP_ALL x .unexpectedMask).2
      ⟨rfl, (isIpv4_iff x).1 hv, hne, hw, fun h => hn ((maskCompatible_iff x).2 h)⟩
    rw [hx] at this
    exact nomatch this
  have ca := compat a ha
  have cb := compat b hb
  rw [toIpv4or6String_all db a ca] at ha
  rw [toIpv4or6String_all db b cb] at hb
  have h := (Res.ok.inj ha).trans (Res.ok.inj hb).symm
  have hs : ∀ x : Addr, addressText x ++ ':' :: (dec x.getPort ++ '/' :: maskText x)
      = (addressText x ++ ':' :: dec x.getPort) ++ '/' :: maskText x := by intro x; simp
  rw [hs, hs] at h
  have hns : ∀ x : Addr, '/' ∉ addressText x ++ ':' :: dec x.getPort := by
    intro x hm
    simp only [List.mem_append, List.mem_cons] at hm
    rcases hm with hm | hm | hm
    · exact addressText_no_slash x hm
    · exact absurd hm (by decide)
    · exact dec_no _ _ (by decide) hm
  obtain ⟨h1, h2⟩ := cut_inj (hns a) (hns b) h
  obtain ⟨h3, h4⟩ := last_colon (dec_no _ _ (by decide)) (dec_no _ _ (by decide)) h1
  rw [← decStr_dec, ← decStr_dec] at h4
  have hb' := bytes_eq_of_text h3
  refine ⟨congrArg ip hb', decStr_inj h4, congrArg ip (mask_eq_of_text (isIpv4_eq_of_text h3) ?_ ?_ h2)⟩
  · exact fun hv => (maskCompatible_iff a).1 (ca hv)
  · exact fun hv => (maskCompatible_iff b).1 (cb hv)

/-- C58: what the text is. -/
theorem C58_all_text (db : NetDb) (a : Addr) (n : Nat) (h : ip a.getMask = prefixMask n) (hn : n ≤ 128)
    (hv : isV4 (ip a.getIpv6.addr) → 96 ≤ n) :
    ∃ t, a.toIpv4or6String db STRING_IP_ALL
        = .ok ((if isV4 (ip a.getIpv6.addr) then t else '[' :: t ++ [']']) ++ ':' :: (dec a.getPort
            ++ '/' :: dec (if isV4 (ip a.getIpv6.addr) then n - 96 else n)))
      ∧ readText t = some (ip a.getIpv6.addr) := by
  have hsize : a.getMaskSize = n := by
    rcases getMaskSize_cases a with ⟨_, h2⟩ | ⟨k, hk, h1, h2⟩
    · exact absurd h (h2 n hn)
    · rw [h2, prefixMask_inj hk hn (h1.symm.trans h)]
  obtain ⟨t, ht, hr, _⟩ := C23_ipv4or6_text_partial db a
  refine ⟨t, ?_, hr⟩
  have hmc : a.isIpv4 = true → a.isMaskIpv4Compatible = true := by
    intro h4
    have h96 := hv ((isIpv4_iff a).1 h4)
    rw [maskCompatible_iff, h, prefixMask]
    have h1 : 2 ^ (128 - n) ≤ 2 ^ 32 := Nat.pow_le_pow_right (by omega) (by omega)
    have h2 : 0 < 2 ^ (128 - n) := Nat.pow_pos (by omega)
    omega
  rw [toIpv4or6String_all db a hmc]
  by_cases h4 : a.isIpv4 = true
  · have h4' : isV4 (ip a.getIpv6.addr) := (isIpv4_iff a).1 h4
    have h96 := hv h4'
    rw [Addr.toIpv4or6String, if_pos h4, toIpv4String_address, if_pos h4] at ht
    rw [if_pos h4', if_pos h4', addressText, if_pos h4, Res.ok.inj ht, maskText, if_neg (by omega), if_pos h4,
      intStr_nonneg (by omega), decStr_dec, show (a.getMaskSize - 96).toNat = n - 96 by omega]
  · have h4' : ¬ isV4 (ip a.getIpv6.addr) := fun h' => h4 ((isIpv4_iff a).2 h')
    rw [Addr.toIpv4or6String, if_neg h4, toIpv6String_address] at ht
    rw [if_neg h4', if_neg h4', addressText, if_neg h4, Res.ok.inj ht, maskText, if_neg (by omega), if_neg h4,
      intStr_nonneg (by omega), decStr_dec, show a.getMaskSize.toNat = n by omega]

example : Addr.toIpv4or6String sampleDb STRING_IP_ALL (((sampleV4 10 1 2 3).setMaskCount 120).1.setPort 8080).1
      = .ok "10.1.2.3:8080/24".toList
    ∧ Addr.toIpv4or6String sampleDb STRING_IP_ALL { sampleAddr (Vector.replicate 16 1) with mask := Vector.replicate 16 0x80 }
      = .ok "[101:101:101:101:101:101:101:101]:0/[8080:8080:8080:8080:8080:8080:8080:8080]".toList := by decide +kernel

/-! ## C59: the text of a range -/

theorem address_text (db : NetDb) (a : Addr) :
    ∃ s, a.toIpv4or6String db STRING_IP_ADDRESS = .ok s ∧ readText s = some (ip a.getIpv6.addr) ∧ '-' ∉ s ∧ '<' ∉ s := by
  obtain ⟨s, h1, h2, _⟩ := C23_ipv4or6_text_partial db a
  have hno : ∀ c, c ∉ "0123456789abcdef:.".toList → c ∉ s := by
    intro c hc hm
    rw [Addr.toIpv4or6String, toIpv4String_address, toIpv6String_address] at h1
    split at h1
    · rw [← Res.ok.inj h1] at hm
      have hs : ∀ c ∈ "0123456789.".toList, c ∈ "0123456789abcdef:.".toList := by decide
      exact hc (hs c (ntop4_chars _ c hm))
    · rw [← Res.ok.inj h1] at hm
      split at hm
      · have hs : ∀ c ∈ "::".toList, c ∈ "0123456789abcdef:.".toList := by decide
        exact hc (hs c hm)
      · exact hc (ntop6_chars _ c hm)
  exact ⟨s, h1, h2, hno _ (by decide), hno _ (by decide)⟩

/-- What a range denotes as text: its bounds, when it is not empty. -/
inductive RangeText (r : Range) : Str → Prop
  | empty (h : Complete r ∧ ip r.hi.getIpv6.addr < ip r.lo.getIpv6.addr ∨ ¬ Defined r) : RangeText r "<empty address range>".toList
  | both (s t : Str) (hs : readText s = some (ip r.lo.getIpv6.addr)) (ht : readText t = some (ip r.hi.getIpv6.addr))
      (h : Complete r ∧ ip r.lo.getIpv6.addr ≤ ip r.hi.getIpv6.addr) (ns : '-' ∉ s) (nt : '-' ∉ t) (ks : '<' ∉ s) :
      RangeText r (s ++ '-' :: t)
  | onlyFrom (s : Str) (hs : readText s = some (ip r.lo.getIpv6.addr)) (h : r.hasFrom = true ∧ r.hasTo = false) (ns : '-' ∉ s)
      (ks : '<' ∉ s) : RangeText r s
  | onlyTo (t : Str) (ht : readText t = some (ip r.hi.getIpv6.addr)) (h : r.hasFrom = false ∧ r.hasTo = true) (nt : '-' ∉ t) :
      RangeText r ('-' :: t)

/-- C59: the text of a range is its bounds with a dash, or a fixed text when it has no address. -/
theorem C59_range_text (db : NetDb) (r : Range) : ∃ s, r.toStr db STRING_IP_ADDRESS = .ok s ∧ RangeText r s := by
  obtain ⟨s, s1, s2, s3, s4⟩ := address_text db r.lo
  obtain ⟨t, t1, t2, t3, t4⟩ := address_text db r.hi
  have hm : STRING_IP_ADDRESS &&& (STRING_IP_ADDRESS ||| STRING_IP_BRACKET_ADDRESS) = STRING_IP_ADDRESS := by decide
  unfold Range.toStr
  rw [hm, s1, t1, isEmpty_ip]
  unfold Range.isRange
  cases hf : r.hasFrom <;> cases ht : r.hasTo
  · refine ⟨_, by simp, .empty (Or.inr ?_)⟩
    simp [Defined, hf, ht]
  · refine ⟨_, by simp, .onlyTo t t2 ⟨hf, ht⟩ t3⟩
  · refine ⟨_, by simp, .onlyFrom s s2 ⟨hf, ht⟩ s3 s4⟩
  · by_cases he : ip r.hi.bytes < ip r.lo.bytes
    · refine ⟨_, by simp [he], .empty (Or.inl ⟨⟨hf, ht⟩, he⟩)⟩
    · refine ⟨_, by simp [he], .both s t s2 t2 ⟨⟨hf, ht⟩, Nat.le_of_not_lt he⟩ s3 t3 s4⟩

/-- C59: the text for ranges without addresses is the text of no other range. -/
theorem C59_empty_text (db : NetDb) (r : Range) :
    r.toStr db STRING_IP_ADDRESS = .ok "<empty address range>".toList
      ↔ Complete r ∧ ip r.hi.getIpv6.addr < ip r.lo.getIpv6.addr ∨ ¬ Defined r := by
  obtain ⟨s, h1, h2⟩ := C59_range_text db r
  rw [h1]
  constructor
  · intro h
    have h := Res.ok.inj h
    cases h2 with
    | empty he => exact he
    | both s1 t1 _ _ _ _ _ _ =>
      have : '-' ∈ "<empty address range>".toList := by rw [← h]; simp
      exact absurd this (by decide)
    | onlyFrom s1 _ _ _ ks => exact absurd (by rw [h]; decide) ks
    | onlyTo t1 _ _ _ => exact nomatch h
  · intro h
    cases h2 with
    | empty => rfl
    | both s1 t1 _ _ hc _ _ _ =>
      rcases h with h | h
      · omega
      · exact absurd (Or.inl hc.1.1) h
    | onlyFrom s1 _ hc _ _ =>
      rcases h with h | h
      · exact absurd (h.1.2.symm.trans hc.2) (by decide)
      · exact absurd (Or.inl hc.1) h
    | onlyTo t1 _ hc _ =>
      rcases h with h | h
      · exact absurd (h.1.1.symm.trans hc.1) (by decide)
      · exact absurd (Or.inr hc.2) h

/-- C59: two ranges with addresses which print the same have the same bounds. -/
theorem C59_range_text_injective (db : NetDb) (p q : Range) (hp : Defined p) (hq : Defined q)
    (np : Complete p → ip p.lo.getIpv6.addr ≤ ip p.hi.getIpv6.addr) (nq : Complete q → ip q.lo.getIpv6.addr ≤ ip q.hi.getIpv6.addr)
    (h : p.toStr db STRING_IP_ADDRESS = q.toStr db STRING_IP_ADDRESS) :
    p.hasFrom = q.hasFrom ∧ p.hasTo = q.hasTo
      ∧ (p.hasFrom = true → ip p.lo.getIpv6.addr = ip q.lo.getIpv6.addr)
      ∧ (p.hasTo = true → ip p.hi.getIpv6.addr = ip q.hi.getIpv6.addr) := by
  obtain ⟨s, h1, h2⟩ := C59_range_text db p
  obtain ⟨t, h3, h4⟩ := C59_range_text db q
  rw [h1, h3] at h
  obtain rfl := Res.ok.inj h
  have ne : ∀ r : Range, Defined r → (Complete r → ip r.lo.getIpv6.addr ≤ ip r.hi.getIpv6.addr) →
      ¬ (Complete r ∧ ip r.hi.getIpv6.addr < ip r.lo.getIpv6.addr ∨ ¬ Defined r) := by
    rintro r hd hn (⟨h1, h2⟩ | h1)
    · have := hn h1; omega
    · exact h1 hd
  generalize hu : s = u at h4
  cases h2 with
  | empty he => exact absurd he (ne p hp np)
  | both s1 t1 r1 r2 hc n1 n2 _ =>
    cases h4 with
    | empty he => exact absurd he (ne q hq nq)
    | both s2 t2 r3 r4 hc' n3 n4 _ =>
      obtain ⟨rfl, rfl⟩ := cut_inj n1 n3 hu
      rw [r1] at r3
      rw [r2] at r4
      exact ⟨by rw [hc.1.1, hc'.1.1], by rw [hc.1.2, hc'.1.2], fun _ => Option.some.inj r3, fun _ => Option.some.inj r4⟩
    | onlyFrom s2 r3 hc' n3 _ => exact absurd (by rw [← hu]; simp) n3
    | onlyTo t2 r3 hc' n3 =>
      obtain ⟨rfl, rfl⟩ := cut_inj (t := []) n1 (by simp) hu
      exact absurd r1 (by simp [readText, pton4, pton4Loop])
  | onlyFrom s1 r1 hc n1 _ =>
    cases h4 with
    | empty he => exact absurd he (ne q hq nq)
    | both s2 t2 r3 r4 hc' n3 n4 _ => exact absurd (by rw [hu]; simp) n1
    | onlyFrom s2 r3 hc' n3 _ =>
      subst hu
      rw [r1] at r3
      exact ⟨by rw [hc.1, hc'.1], by rw [hc.2, hc'.2], fun _ => Option.some.inj r3, fun h => by rw [hc.2] at h; exact nomatch h⟩
    | onlyTo t2 r3 hc' n3 => exact absurd (by rw [hu]; simp) n1
  | onlyTo t1 r1 hc n1 =>
    cases h4 with
    | empty he => exact absurd he (ne q hq nq)
    | both s2 t2 r3 r4 hc' n3 n4 _ =>
      obtain ⟨h5, rfl⟩ := cut_inj (s := []) (by simp) n3 hu
      subst h5
      exact absurd r3 (by simp [readText, pton4, pton4Loop])
    | onlyFrom s2 r3 hc' n3 _ => exact absurd (by rw [← hu]; simp) n3
    | onlyTo t2 r3 hc' n3 =>
      obtain rfl := (List.cons.inj hu).2
      rw [r1] at r3
      exact ⟨by rw [hc.1, hc'.1], by rw [hc.2, hc'.2], fun h => (by rw [hc.1] at h; exact nomatch h), fun _ => Option.some.inj r3⟩

/-- C59: a vector of ranges prints as the texts of its ranges joined by the separator. -/
theorem C59_vector_text (db : NetDb) (mode : BitVec 32) (sep : Str) (rs : List Range) (texts : List Str)
    (h : rs.map (fun r => r.toStr db mode) = texts.map Res.ok) :
    Range.toStrAll db mode sep rs true = .ok (sep.intercalate texts) := by
  have rest : ∀ (rs : List Range) (texts : List Str), rs.map (fun r => r.toStr db mode) = texts.map Res.ok →
      Range.toStrAll db mode sep rs false = .ok (texts.flatMap (sep ++ ·)) := by
    intro rs
    induction rs with
    | nil => intro texts h; cases texts with
      | nil => rfl
      | cons => exact nomatch h
    | cons r rs ih => intro texts h; cases texts with
      | nil => exact nomatch h
      | cons t ts =>
        simp only [List.map_cons, List.cons.injEq] at h
        rw [Range.toStrAll, h.1, Res.bind_ok, ih ts h.2, Res.bind_ok]
        simp
  cases rs with
  | nil => cases texts with
    | nil => rfl
    | cons => exact nomatch h
  | cons r rs => cases texts with
    | nil => exact nomatch h
    | cons t ts =>
      simp only [List.map_cons, List.cons.injEq] at h
      rw [Range.toStrAll, h.1, Res.bind_ok, rest rs ts h.2, Res.bind_ok]
      congr 1
      clear h
      simp only [↓reduceIte, List.nil_append]
      induction ts generalizing t with
      | nil => simp
      | cons u ts ih => simp only [List.flatMap_cons, List.intercalate_cons_cons, ← ih u]; simp

example : Range.toStrAll sampleDb STRING_IP_ADDRESS ", ".toList
      [sampleRange (sampleV4 10 0 0 1) (sampleV4 10 0 0 9), Range.setFrom (sampleV4 1 2 3 4) .default,
       Range.setTo (sampleV4 9 2 3 4) .default, .default] true
    = .ok "10.0.0.1-10.0.0.9, 1.2.3.4, -9.2.3.4, <empty address range>".toList := by decide +kernel

end Verif
