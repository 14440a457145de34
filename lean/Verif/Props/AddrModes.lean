import Verif.Props.AddrText

/-!
# Property C126: the text of an address, mode by mode
-/

namespace Verif

open Spec Inet

namespace Spec

/-- Bit `i` of a mode is set: 0 the address, 1 the address with its brackets, 2 the port, 3 the name of the port, 4 the mask,
5 the mask with its brackets, 6 the mask as an address, 7 the mask unless it is the one of a single address, 8 the default
address as an asterisk, 9 the default address as `0.0.0.0`. -/
def Asks (mode : BitVec 32) (i : Nat) : Prop := mode.getLsbD i = true

instance (mode : BitVec 32) (i : Nat) : Decidable (Asks mode i) := inferInstanceAs (Decidable (_ = _))

/-- The mode asks for the address. -/
def AsksAddress (mode : BitVec 32) : Prop := Asks mode 0 ∨ Asks mode 1

/-- The mode asks for the port. -/
def AsksPort (mode : BitVec 32) : Prop := Asks mode 2 ∨ Asks mode 3

/-- The mode asks for the mask of an address. -/
def AsksMask (mode : BitVec 32) (mask : Nat) : Prop :=
  (Asks mode 4 ∨ Asks mode 5 ∨ Asks mode 6 ∨ Asks mode 7) ∧ ¬ (Asks mode 7 ∧ mask = prefixMask 128)

/-- The mode puts what is IPv6 between brackets. -/
def AsksBrackets (mode : BitVec 32) : Prop := Asks mode 1 ∨ Asks mode 5 ∨ AsksPort mode

instance (mode : BitVec 32) : Decidable (AsksAddress mode) := inferInstanceAs (Decidable (_ ∨ _))
instance (mode : BitVec 32) : Decidable (AsksPort mode) := inferInstanceAs (Decidable (_ ∨ _))
instance (mode : BitVec 32) (mask : Nat) : Decidable (AsksMask mode mask) := inferInstanceAs (Decidable (_ ∧ _))
instance (mode : BitVec 32) : Decidable (AsksBrackets mode) := inferInstanceAs (Decidable (_ ∨ _ ∨ _))

/-- A text, between brackets if `b`. -/
inductive Boxed (b : Prop) (t : Str) : Str → Prop
  | box (h : b) : Boxed b t ('[' :: (t ++ [']']))
  | bare (h : ¬ b) : Boxed b t t

/-- A word, after the character `c` if `b`. -/
inductive Joined (b : Prop) (c : Char) (w : Str) : Str → Prop
  | after (h : b) : Joined b c w (c :: w)
  | first (h : ¬ b) : Joined b c w w

/-- What `to_ipv4_string()` prints for the IPv4 address of value `v`. -/
inductive Address4 (mode : BitVec 32) (v : Nat) : Str → Prop
  | nothing (h : ¬ AsksAddress mode) : Address4 mode v []
  | star (h : AsksAddress mode) (h4 : isV4 v) (hd : isAny v) (h8 : Asks mode 8) : Address4 mode v ['*']
  | dots (h : AsksAddress mode) (h4 : isV4 v) (hn : isAny v → ¬ Asks mode 8) : Address4 mode v (dotted (v % 2 ^ 32))

/-- The default address is printed as the one of IPv4, without brackets. -/
def AsZeros (mode : BitVec 32) (v : Nat) : Prop := AsksAddress mode ∧ isAny v ∧ ¬ Asks mode 8 ∧ Asks mode 9

/-- What `to_ipv6_string()` prints for the address of value `v`. -/
inductive Address6 (mode : BitVec 32) (v : Nat) : Str → Prop
  | nothing (h : ¬ AsksAddress mode) : Address6 mode v []
  | star {s : Str} (h : AsksAddress mode) (hd : isAny v) (h8 : Asks mode 8) (hs : Boxed (AsksBrackets mode) ['*'] s) :
    Address6 mode v s
  | zeros (h : AsZeros mode v) : Address6 mode v (dotted 0)
  | any {t s : Str} (h : AsksAddress mode) (hd : isAny v) (h8 : ¬ Asks mode 8) (h9 : ¬ Asks mode 9) (ht : Text6 0 t)
    (hs : Boxed (AsksBrackets mode) t s) : Address6 mode v s
  | other {t s : Str} (h : AsksAddress mode) (hd : ¬ isAny v) (ht : Text6 v t) (hs : Boxed (AsksBrackets mode) t s) :
    Address6 mode v s

/-- The text which the database of the protocols gives for a protocol; there is none if it does not know it. -/
inductive ProtocolText (db : NetDb) (protocol : Int) : Str → Prop
  | known {n : Str} (h : db.protoByNumber protocol = .found n) : ProtocolText db protocol (cstr n)
  | failed (h : db.protoByNumber protocol = .error) : ProtocolText db protocol []

/-- How a port is written: its number, or its name if it is asked for and there is one. -/
inductive PortWord (db : NetDb) (mode : BitVec 32) (protocol : Int) (port : Nat) : Str → Prop
  | number (h : ¬ Asks mode 3) : PortWord db mode protocol port (dec port)
  | named {p n : Str} (h : Asks mode 3) (hp : ProtocolText db protocol p) (hn : db.servByPort port p = .found n) (h0 : n ≠ []) :
    PortWord db mode protocol port n
  | unnamed {p : Str} (h : Asks mode 3) (hp : ProtocolText db protocol p)
    (hn : ∀ n, db.servByPort port p = .found n → n = []) : PortWord db mode protocol port (dec port)

/-- What is printed for the port. -/
inductive PortShown (db : NetDb) (mode : BitVec 32) (protocol : Int) (port : Nat) : Str → Prop
  | nothing (h : ¬ AsksPort mode) : PortShown db mode protocol port []
  | shown {w s : Str} (h : AsksPort mode) (hw : PortWord db mode protocol port w) (hs : Joined (AsksAddress mode) ':' w s) :
    PortShown db mode protocol port s

/-- The number of bits of a mask, if it is printed so. -/
def BitsOf (mode : BitVec 32) (mask n : Nat) : Prop := ¬ Asks mode 6 ∧ n ≤ 128 ∧ mask = prefixMask n

/-- What `to_ipv4_string()` prints for the mask. -/
inductive Mask4 (mode : BitVec 32) (mask : Nat) : Str → Prop
  | nothing (h : ¬ AsksMask mode mask) : Mask4 mode mask []
  | bits {n : Nat} {s : Str} (h : AsksMask mode mask) (hc : mask / 2 ^ 32 = 2 ^ 96 - 1) (hn : BitsOf mode mask n)
    (hs : Joined (AsksAddress mode ∨ AsksPort mode) '/' (dec (n - 96)) s) : Mask4 mode mask s
  | dots {s : Str} (h : AsksMask mode mask) (hc : mask / 2 ^ 32 = 2 ^ 96 - 1) (hn : ∀ n, ¬ BitsOf mode mask n)
    (hs : Joined (AsksAddress mode ∨ AsksPort mode) '/' (dotted (mask % 2 ^ 32)) s) : Mask4 mode mask s

/-- What `to_ipv6_string()` prints for the mask of the address of value `v`. -/
inductive Mask6 (mode : BitVec 32) (v mask : Nat) : Str → Prop
  | nothing (h : ¬ AsksMask mode mask) : Mask6 mode v mask []
  | bits {n : Nat} {s : Str} (h : AsksMask mode mask) (hn : BitsOf mode mask n)
    (hs : Joined (AsksAddress mode ∨ AsksPort mode) '/' (dec n) s) : Mask6 mode v mask s
  | text {t w s : Str} (h : AsksMask mode mask) (hn : ∀ n, ¬ BitsOf mode mask n) (ht : Text6 mask t)
    (hw : Boxed (AsksBrackets mode ∧ ¬ AsZeros mode v) t w) (hs : Joined (AsksAddress mode ∨ AsksPort mode) '/' w s) :
    Mask6 mode v mask s

end Spec

/-! ## The flags -/

theorem anyOf_or (m a b : BitVec 32) : anyOf m (a ||| b) = (anyOf m a || anyOf m b) := by
  have h : (m &&& (a ||| b) = 0) ↔ (m &&& a = 0 ∧ m &&& b = 0) := by
    constructor
    · intro h
      have key : ∀ i, (m.getLsbD i && (a.getLsbD i || b.getLsbD i)) = false := by
        intro i
        have := congrArg (·.getLsbD i) h
        simpa using this
      constructor <;>
      · apply BitVec.eq_of_getLsbD_eq
        intro i _
        have := key i
        revert this
        simp only [BitVec.getLsbD_and, BitVec.getLsbD_zero, BitVec.ofNat_eq_ofNat]
        cases m.getLsbD i <;> cases a.getLsbD i <;> cases b.getLsbD i <;> simp
    · rintro ⟨h1, h2⟩
      apply BitVec.eq_of_getLsbD_eq
      intro i _
      have e1 := congrArg (·.getLsbD i) h1
      have e2 := congrArg (·.getLsbD i) h2
      revert e1 e2
      simp only [BitVec.getLsbD_and, BitVec.getLsbD_or, BitVec.getLsbD_zero, BitVec.ofNat_eq_ofNat]
      cases m.getLsbD i <;> cases a.getLsbD i <;> cases b.getLsbD i <;> simp
  unfold anyOf
  rw [Bool.eq_iff_iff]
  simp only [bne_iff_ne, ne_eq, Bool.or_eq_true]
  rw [h]
  exact Decidable.not_and_iff_not_or_not

theorem anyOf_bit (m : BitVec 32) (i : Nat) (hi : i < 32) : anyOf m (BitVec.twoPow 32 i) = true ↔ Asks m i := by
  unfold anyOf Asks
  rw [BitVec.and_twoPow]
  cases m.getLsbD i with
  | false => simp
  | true =>
    simp only [↓reduceIte, bne_iff_ne, ne_eq, iff_true]
    intro h
    have := congrArg (·.getLsbD i) h
    simp [hi] at this

theorem asks_0 (m : BitVec 32) : anyOf m STRING_IP_ADDRESS = true ↔ Asks m 0 := anyOf_bit m 0 (by decide)
theorem asks_1 (m : BitVec 32) : anyOf m STRING_IP_BRACKET_ADDRESS = true ↔ Asks m 1 := anyOf_bit m 1 (by decide)
theorem asks_2 (m : BitVec 32) : anyOf m STRING_IP_PORT = true ↔ Asks m 2 := anyOf_bit m 2 (by decide)
theorem asks_3 (m : BitVec 32) : anyOf m STRING_IP_PORT_NAME = true ↔ Asks m 3 := anyOf_bit m 3 (by decide)
theorem asks_4 (m : BitVec 32) : anyOf m STRING_IP_MASK = true ↔ Asks m 4 := anyOf_bit m 4 (by decide)
theorem asks_5 (m : BitVec 32) : anyOf m STRING_IP_BRACKET_MASK = true ↔ Asks m 5 := anyOf_bit m 5 (by decide)
theorem asks_6 (m : BitVec 32) : anyOf m STRING_IP_MASK_AS_ADDRESS = true ↔ Asks m 6 := anyOf_bit m 6 (by decide)
theorem asks_7 (m : BitVec 32) : anyOf m STRING_IP_MASK_IF_NEEDED = true ↔ Asks m 7 := anyOf_bit m 7 (by decide)
theorem asks_8 (m : BitVec 32) : anyOf m STRING_IP_DEFAULT_AS_ASTERISK = true ↔ Asks m 8 := anyOf_bit m 8 (by decide)
theorem asks_9 (m : BitVec 32) : anyOf m STRING_IP_DEFAULT_AS_IPV4 = true ↔ Asks m 9 := anyOf_bit m 9 (by decide)

theorem asks_address (m : BitVec 32) : anyOf m (STRING_IP_ADDRESS ||| STRING_IP_BRACKET_ADDRESS) = true ↔ AsksAddress m := by
  rw [anyOf_or, Bool.or_eq_true, asks_0, asks_1, AsksAddress]

theorem asks_port (m : BitVec 32) : anyOf m (STRING_IP_PORT ||| STRING_IP_PORT_NAME) = true ↔ AsksPort m := by
  rw [anyOf_or, Bool.or_eq_true, asks_2, asks_3, AsksPort]

theorem asks_mask (m : BitVec 32) (a : Addr) : a.wantsMask m = true ↔ AsksMask m (ip a.mask) := by
  have hs : a.getMaskSize ≠ 128 ↔ ¬ ip a.mask = prefixMask 128 := by
    apply not_congr
    rcases getMaskSize_cases a with ⟨h, hn⟩ | ⟨n, hn, hm, h⟩
    · rw [h]
      exact ⟨fun h => absurd h (by decide), fun h' => absurd h' (hn 128 (by omega))⟩
    · rw [h, hm]
      constructor
      · intro e
        rw [show n = 128 by omega]
      · intro e
        rw [prefixMask_inj hn (by omega) e]; rfl
  simp only [Addr.wantsMask, AsksMask, anyOf_or, Bool.and_eq_true, Bool.or_eq_true, asks_4, asks_5, asks_6, asks_7, or_assoc,
    bne_iff_ne, hs, Bool.not_eq_true']
  rw [← Bool.not_eq_true, asks_7]
  constructor
  · rintro ⟨h, h'⟩; exact ⟨h, fun hc => h'.elim (fun k => k hc.2) (fun k => k hc.1)⟩
  · rintro ⟨h, h'⟩
    refine ⟨h, ?_⟩
    by_cases h7 : Asks m 7
    · exact .inl fun e => h' ⟨h7, e⟩
    · exact .inr h7

theorem asks_brackets (m : BitVec 32) : Addr.includeBrackets m = true ↔ AsksBrackets m := by
  simp only [Addr.includeBrackets, AsksBrackets, AsksPort, anyOf_or, Bool.or_eq_true, asks_1, asks_2, asks_3, asks_5, or_assoc]

theorem asks_slash (m : BitVec 32) (w s : Str) :
    Addr.maskSlash m ++ w = s ↔ Joined (AsksAddress m ∨ AsksPort m) '/' w s := by
  have h : anyOf m (STRING_IP_ADDRESS ||| STRING_IP_BRACKET_ADDRESS ||| STRING_IP_PORT ||| STRING_IP_PORT_NAME) = true
      ↔ (AsksAddress m ∨ AsksPort m) := by
    simp only [AsksAddress, AsksPort, anyOf_or, Bool.or_eq_true, asks_0, asks_1, asks_2, asks_3, or_assoc]
  rw [Addr.maskSlash]
  by_cases hj : AsksAddress m ∨ AsksPort m
  · rw [if_pos (h.2 hj)]
    exact ⟨fun e => e ▸ .after hj, fun e => by cases e with | after _ => rfl | first h => exact absurd hj h⟩
  · rw [if_neg (fun e => hj (h.1 e))]
    exact ⟨fun e => e ▸ .first hj, fun e => by cases e with | after h => exact absurd h hj | first _ => rfl⟩

theorem boxed_iff {b : Bool} {p : Prop} (h : b = true ↔ p) (t s : Str) : Addr.bracketed b t = s ↔ Boxed p t s := by
  cases b with
  | true => exact ⟨fun e => e ▸ .box (h.1 rfl), fun e => by cases e with | box _ => rfl | bare hn => exact absurd (h.1 rfl) hn⟩
  | false =>
    have hn : ¬ p := fun hp => absurd (h.2 hp) Bool.false_ne_true
    exact ⟨fun e => e ▸ .bare hn, fun e => by cases e with | box hp => exact absurd hp hn | bare _ => rfl⟩

/-! ## The parts -/

theorem address4_iff (mode : BitVec 32) (a : Addr) (s : Str) : a.addressPart4 mode = .ok s ↔ Address4 mode (ip a.bytes) s := by
  rw [Addr.addressPart4]
  by_cases h : AsksAddress mode
  · rw [if_pos ((asks_address mode).2 h)]
    by_cases h4 : isV4 (ip a.bytes)
    · rw [if_pos ((isIpv4_iff a).2 h4)]
      by_cases hd : Asks mode 8 ∧ isAny (ip a.bytes)
      · rw [if_pos (by rw [(asks_8 mode).2 hd.1, (isDefault_iff a).2 hd.2]; rfl), Res.ok.injEq]
        constructor
        · intro e; exact e ▸ .star h h4 hd.2 hd.1
        · intro e
          cases e with
          | nothing hn => exact absurd h hn
          | star => rfl
          | dots _ _ hn => exact absurd hd.1 (hn hd.2)
      · rw [if_neg (by rw [Bool.and_eq_true, asks_8, isDefault_iff]; exact hd), Res.ok.injEq]
        have e0 : ntop4 #v[a.bytes[12], a.bytes[13], a.bytes[14], a.bytes[15]] = dotted (ip a.bytes % 2 ^ 32) := by
          rw [← ip4_last4, ← ntop4_dotted]; rfl
        rw [e0]
        constructor
        · intro e; exact e ▸ .dots h h4 fun h1 h2 => hd ⟨h2, h1⟩
        · intro e
          cases e with
          | nothing hn => exact absurd h hn
          | star _ _ h1 h2 => exact absurd ⟨h2, h1⟩ hd
          | dots => rfl
    · rw [if_neg (fun e => h4 ((isIpv4_iff a).1 e))]
      constructor
      · intro e; exact nomatch e
      · intro e
        cases e with
        | nothing hn => exact absurd h hn
        | star _ h' => exact absurd h' h4
        | dots _ h' => exact absurd h' h4
  · rw [if_neg (fun e => h ((asks_address mode).1 e)), Res.ok.injEq]
    constructor
    · intro e; exact e ▸ .nothing h
    · intro e
      cases e with
      | nothing => rfl
      | star h' => exact absurd h' h
      | dots h' => exact absurd h' h

theorem text6_zero : Text6 0 "::".toList := by
  have h := ntop6_text (Vector.replicate 16 0)
  rw [show ip (Vector.replicate 16 0) = 0 by decide +kernel, show ntop6 (Vector.replicate 16 0) = "::".toList by decide +kernel] at h
  exact h

theorem address6_iff (mode : BitVec 32) (a : Addr) (s : Str) :
    (a.addressPart6 mode).1 = s ↔ Address6 mode (ip a.bytes) s := by
  have hb := asks_brackets mode
  rw [Addr.addressPart6]
  by_cases h : AsksAddress mode
  · rw [if_pos ((asks_address mode).2 h)]
    by_cases hd : isAny (ip a.bytes)
    · rw [if_pos ((isDefault_iff a).2 hd)]
      by_cases h8 : Asks mode 8
      · rw [if_pos ((asks_8 mode).2 h8)]
        rw [boxed_iff hb]
        constructor
        · intro e; exact .star h hd h8 e
        · intro e
          cases e with
          | nothing hn => exact absurd h hn
          | star _ _ _ hs => exact hs
          | zeros hz => exact absurd h8 hz.2.2.1
          | any _ _ hn => exact absurd h8 hn
          | other _ hn => exact absurd hd hn
      · rw [if_neg (fun e => h8 ((asks_8 mode).1 e))]
        by_cases h9 : Asks mode 9
        · rw [if_pos ((asks_9 mode).2 h9)]
          have e0 : "0.0.0.0".toList = dotted 0 := by decide +kernel
          dsimp only
          rw [e0]
          constructor
          · intro e; exact e ▸ .zeros ⟨h, hd, h8, h9⟩
          · intro e
            cases e with
            | nothing hn => exact absurd h hn
            | star _ _ h' => exact absurd h' h8
            | zeros => rfl
            | any _ _ _ hn => exact absurd h9 hn
            | other _ hn => exact absurd hd hn
        · rw [if_neg (fun e => h9 ((asks_9 mode).1 e))]
          rw [boxed_iff hb]
          constructor
          · intro e; exact .any h hd h8 h9 text6_zero e
          · intro e
            cases e with
            | nothing hn => exact absurd h hn
            | star _ _ h' => exact absurd h' h8
            | zeros hz => exact absurd hz.2.2.2 h9
            | any _ _ _ _ ht hs => rw [C22_canonical_unique ht text6_zero] at hs; exact hs
            | other _ hn => exact absurd hd hn
    · rw [if_neg (fun e => hd ((isDefault_iff a).1 e))]
      rw [boxed_iff hb]
      constructor
      · intro e; exact .other h hd (ntop6_text _) e
      · intro e
        cases e with
        | nothing hn => exact absurd h hn
        | star _ h' => exact absurd h' hd
        | zeros hz => exact absurd hz.2.1 hd
        | any _ h' => exact absurd h' hd
        | other _ _ ht hs => rw [C22_canonical_unique ht (ntop6_text _)] at hs; exact hs
  · rw [if_neg (fun e => h ((asks_address mode).1 e))]
    constructor
    · intro e; exact e ▸ .nothing h
    · intro e
      cases e with
      | nothing => rfl
      | star h' => exact absurd h' h
      | zeros hz => exact absurd hz.1 h
      | any h' => exact absurd h' h
      | other h' => exact absurd h' h

/-- The final value of `include_brackets`. -/
theorem brackets6_iff (mode : BitVec 32) (a : Addr) :
    (a.addressPart6 mode).2 = true ↔ AsksBrackets mode ∧ ¬ AsZeros mode (ip a.bytes) := by
  have hb := asks_brackets mode
  have plain : ¬ AsZeros mode (ip a.bytes) → (Addr.includeBrackets mode = true
      ↔ AsksBrackets mode ∧ ¬ AsZeros mode (ip a.bytes)) := fun hz => by rw [hb]; exact ⟨fun h => ⟨h, hz⟩, fun h => h.1⟩
  rw [Addr.addressPart6]
  by_cases h : AsksAddress mode
  · rw [if_pos ((asks_address mode).2 h)]
    by_cases hd : isAny (ip a.bytes)
    · rw [if_pos ((isDefault_iff a).2 hd)]
      by_cases h8 : Asks mode 8
      · rw [if_pos ((asks_8 mode).2 h8)]
        exact plain fun hz => hz.2.2.1 h8
      · rw [if_neg (fun e => h8 ((asks_8 mode).1 e))]
        by_cases h9 : Asks mode 9
        · rw [if_pos ((asks_9 mode).2 h9)]
          exact ⟨fun e => absurd e Bool.false_ne_true, fun e => absurd ⟨h, hd, h8, h9⟩ e.2⟩
        · rw [if_neg (fun e => h9 ((asks_9 mode).1 e))]
          exact plain fun hz => h9 hz.2.2.2
    · rw [if_neg (fun e => hd ((isDefault_iff a).1 e))]
      exact plain fun hz => hd hz.2.1
  · rw [if_neg (fun e => h ((asks_address mode).1 e))]
    exact plain fun hz => h hz.1

theorem protocol_text (db : NetDb) (a : Addr) (p : Str) :
    (∃ n, a.getProtocolName db = .ok n ∧ cstr n = p) ↔ ProtocolText db a.protocol p := by
  rw [Addr.getProtocolName]
  constructor
  · rintro ⟨n, h, rfl⟩
    cases h' : db.protoByNumber a.protocol with
    | found m => rw [h'] at h; obtain rfl := Res.ok.inj h; exact .known h'
    | notFound => rw [h'] at h; exact nomatch h
    | error => rw [h'] at h; obtain rfl := Res.ok.inj h; exact .failed h'
  · intro h
    cases h with
    | known h => rw [h]; exact ⟨_, rfl, rfl⟩
    | failed h => rw [h]; exact ⟨[], rfl, rfl⟩

theorem protocolText_unique {db : NetDb} {protocol : Int} {p q : Str} (hp : ProtocolText db protocol p)
    (hq : ProtocolText db protocol q) : p = q := by
  cases hp with
  | known h =>
    cases hq with
    | known h' => rw [h] at h'; injection h' with e; rw [e]
    | failed h' => rw [h] at h'; exact nomatch h'
  | failed h =>
    cases hq with
    | known h' => rw [h] at h'; exact nomatch h'
    | failed h' => rfl

theorem portWord_unique {db : NetDb} {mode : BitVec 32} {protocol : Int} {port : Nat} {p q : Str}
    (hp : PortWord db mode protocol port p) (hq : PortWord db mode protocol port q) : p = q := by
  cases hp with
  | number h =>
    cases hq with
    | number => rfl
    | named h' => exact absurd h' h
    | unnamed h' => exact absurd h' h
  | named h h1 h2 h3 =>
    cases hq with
    | number h' => exact absurd h h'
    | named _ g1 g2 g3 =>
      rw [protocolText_unique h1 g1, g2] at h2
      injection h2 with e; exact e.symm
    | unnamed _ g1 g2 =>
      rw [protocolText_unique h1 g1] at h2
      exact absurd (g2 _ h2) h3
  | unnamed h h1 h2 =>
    cases hq with
    | number => rfl
    | named _ g1 g2 g3 =>
      rw [protocolText_unique g1 h1] at g2
      exact absurd (h2 _ g2) g3
    | unnamed => rfl

/-- The word for the port, if there is one. -/
theorem port_word (db : NetDb) (mode : BitVec 32) (a : Addr) (h3 : Asks mode 3) :
    (∃ n, a.getPortName db = .ok n ∧ PortWord db mode a.protocol a.getPort (if n = [] then dec a.getPort else n))
      ∨ ((∃ w, a.getPortName db = .ub w) ∧ ∀ w, ¬ PortWord db mode a.protocol a.getPort w) := by
  rw [Addr.getPortName]
  cases hp : a.getProtocolName db with
  | ok q =>
    left
    have ht : ProtocolText db a.protocol (cstr q) := (protocol_text db a _).1 ⟨q, hp, rfl⟩
    rw [Res.bind_ok]
    cases hs : db.servByPort a.getPort (cstr q) with
    | found n =>
      refine ⟨n, rfl, ?_⟩
      by_cases h0 : n = []
      · rw [if_pos h0]
        exact .unnamed h3 ht fun m hm => by rw [hs] at hm; injection hm with e; rw [← e]; exact h0
      · rw [if_neg h0]; exact .named h3 ht hs h0
    | notFound => exact ⟨[], rfl, .unnamed h3 ht fun m hm => by rw [hs] at hm; exact nomatch hm⟩
    | error => exact ⟨[], rfl, .unnamed h3 ht fun m hm => by rw [hs] at hm; exact nomatch hm⟩
  | throw e =>
    exfalso
    rw [Addr.getProtocolName] at hp
    split at hp <;> exact nomatch hp
  | ub w =>
    right
    have hn : ∀ p, ¬ ProtocolText db a.protocol p := by
      intro p ht
      obtain ⟨n, h, _⟩ := (protocol_text db a p).2 ht
      rw [hp] at h; exact nomatch h
    refine ⟨⟨w, rfl⟩, ?_⟩
    intro t ht
    cases ht with
    | number h => exact h h3
    | named _ h => exact hn _ h
    | unnamed _ h => exact hn _ h

theorem joined_iff {b : Bool} {p : Prop} (h : b = true ↔ p) (c : Char) (w s : Str) :
    (if b = true then [c] else []) ++ w = s ↔ Joined p c w s := by
  cases b with
  | true => exact ⟨fun e => e ▸ .after (h.1 rfl), fun e => by cases e with | after _ => rfl | first hn => exact absurd (h.1 rfl) hn⟩
  | false =>
    have hn : ¬ p := fun hp => absurd (h.2 hp) Bool.false_ne_true
    exact ⟨fun e => e ▸ .first hn, fun e => by cases e with | after hp => exact absurd hp hn | first _ => rfl⟩

theorem port_iff (db : NetDb) (mode : BitVec 32) (a : Addr) (s : Str) :
    a.portPart db mode = .ok s ↔ PortShown db mode a.protocol a.getPort s := by
  have hj := joined_iff (asks_address mode) ':'
  rw [Addr.portPart]
  by_cases h : AsksPort mode
  · rw [if_pos ((asks_port mode).2 h)]
    have hw : ∀ w, PortWord db mode a.protocol a.getPort w →
        (PortShown db mode a.protocol a.getPort s ↔ Joined (AsksAddress mode) ':' w s) := by
      intro w hw
      constructor
      · intro e
        cases e with
        | nothing hn => exact absurd h hn
        | shown _ hw' hs => rw [portWord_unique hw hw']; exact hs
      · exact fun hs => .shown h hw hs
    by_cases h3 : Asks mode 3
    · simp only [if_pos ((asks_3 mode).2 h3)]
      rcases port_word db mode a h3 with ⟨n, hn, hword⟩ | ⟨⟨w, hu⟩, hnone⟩
      · rw [hn, Res.bind_ok, hw _ hword, ← hj]
        by_cases h0 : n = []
        · rw [if_pos h0, if_pos h0, Res.ok.injEq, Addr.getStrPort, decStr_dec]
        · rw [if_neg h0, if_neg h0, Res.ok.injEq]
      · rw [hu]
        constructor
        · intro e; exact nomatch e
        · intro e
          cases e with
          | nothing hn => exact absurd h hn
          | shown _ hw' => exact absurd hw' (hnone _)
    · simp only [if_neg (fun e => h3 ((asks_3 mode).1 e))]
      rw [hw _ (.number h3), ← hj, Res.ok.injEq, Addr.getStrPort, decStr_dec]
  · rw [if_neg (fun e => h ((asks_port mode).1 e)), Res.ok.injEq]
    constructor
    · intro e; exact e ▸ .nothing h
    · intro e
      cases e with
      | nothing => rfl
      | shown h' => exact absurd h' h

/-- How many bits are printed. -/
theorem bits_cases (mode : BitVec 32) (a : Addr) :
    (a.maskBits mode = -1 ∧ ∀ n, ¬ BitsOf mode (ip a.mask) n)
      ∨ ∃ n : Nat, a.maskBits mode = n ∧ BitsOf mode (ip a.mask) n := by
  rw [Addr.maskBits]
  by_cases h6 : Asks mode 6
  · rw [if_pos ((asks_6 mode).2 h6)]
    exact .inl ⟨rfl, fun n h => h.1 h6⟩
  · rw [if_neg (fun e => h6 ((asks_6 mode).1 e))]
    rcases getMaskSize_cases a with ⟨h, hn⟩ | ⟨n, hn, hm, h⟩
    · exact .inl ⟨h, fun n hb => hn n hb.2.1 hb.2.2⟩
    · exact .inr ⟨n, h, h6, hn, hm⟩

theorem bitsOf_unique {mode : BitVec 32} {mask n m : Nat} (hn : BitsOf mode mask n) (hm : BitsOf mode mask m) : n = m :=
  prefixMask_inj hn.2.1 hm.2.1 (hn.2.2.symm.trans hm.2.2)

theorem mask4_iff (mode : BitVec 32) (a : Addr) (s : Str) : a.maskPart4 mode = .ok s ↔ Mask4 mode (ip a.mask) s := by
  have hslash := asks_slash mode
  rw [Addr.maskPart4]
  by_cases h : AsksMask mode (ip a.mask)
  · rw [if_pos ((asks_mask mode a).2 h)]
    by_cases hc : ip a.mask / 2 ^ 32 = 2 ^ 96 - 1
    · rw [if_pos ((maskCompatible_iff a).2 hc)]
      dsimp only
      rw [Res.ok.injEq, hslash]
      rcases bits_cases mode a with ⟨hb, hn⟩ | ⟨n, hb, hn⟩
      · rw [if_pos hb]
        have e0 : ntop4 #v[a.mask[12], a.mask[13], a.mask[14], a.mask[15]] = dotted (ip a.mask % 2 ^ 32) := by
          rw [← ip4_last4, ← ntop4_dotted]; rfl
        rw [e0]
        constructor
        · intro e; exact .dots h hc hn e
        · intro e
          cases e with
          | nothing h' => exact absurd h h'
          | bits _ _ hb' => exact absurd hb' (hn _)
          | dots _ _ _ hs => exact hs
      · have h96 := maskSize_v4 hn.2.1 hc hn.2.2
        rw [if_neg (by omega), hb, intStr_nonneg (by omega), decStr_dec, show ((n : Int) - 96).toNat = n - 96 by omega]
        constructor
        · intro e; exact .bits h hc hn e
        · intro e
          cases e with
          | nothing h' => exact absurd h h'
          | bits _ _ hb' hs => rw [bitsOf_unique hn hb']; exact hs
          | dots _ _ hb' => exact absurd hn (hb' _)
    · rw [if_neg (fun e => hc ((maskCompatible_iff a).1 e))]
      constructor
      · intro e; exact nomatch e
      · intro e
        cases e with
        | nothing h' => exact absurd h h'
        | bits _ h' => exact absurd h' hc
        | dots _ h' => exact absurd h' hc
  · rw [if_neg (fun e => h ((asks_mask mode a).1 e)), Res.ok.injEq]
    constructor
    · intro e; exact e ▸ .nothing h
    · intro e
      cases e with
      | nothing => rfl
      | bits h' => exact absurd h' h
      | dots h' => exact absurd h' h

theorem mask6_iff (mode : BitVec 32) (a : Addr) (s : Str) :
    a.maskPart6 mode (a.addressPart6 mode).2 = s ↔ Mask6 mode (ip a.bytes) (ip a.mask) s := by
  have hslash := asks_slash mode
  rw [Addr.maskPart6]
  by_cases h : AsksMask mode (ip a.mask)
  · rw [if_pos ((asks_mask mode a).2 h)]
    dsimp only
    rw [hslash]
    rcases bits_cases mode a with ⟨hb, hn⟩ | ⟨n, hb, hn⟩
    · rw [if_pos hb]
      have hbox := (boxed_iff (brackets6_iff mode a) (ntop6 a.mask) (Addr.bracketed (a.addressPart6 mode).2 (ntop6 a.mask))).1 rfl
      constructor
      · intro e; exact .text h hn (ntop6_text _) hbox e
      · intro e
        cases e with
        | nothing h' => exact absurd h h'
        | bits _ hb' => exact absurd hb' (hn _)
        | text _ _ ht hw hs =>
          rw [C22_canonical_unique ht (ntop6_text _), ← boxed_iff (brackets6_iff mode a)] at hw
          rw [hw]; exact hs
    · rw [if_neg (by omega), hb, intStr_nonneg (by omega), decStr_dec, show (n : Int).toNat = n by omega]
      constructor
      · intro e; exact .bits h hn e
      · intro e
        cases e with
        | nothing h' => exact absurd h h'
        | bits _ hb' hs => rw [bitsOf_unique hn hb']; exact hs
        | text _ hb' => exact absurd hn (hb' _)
  · rw [if_neg (fun e => h ((asks_mask mode a).1 e))]
    constructor
    · intro e; exact e ▸ .nothing h
    · intro e
      cases e with
      | nothing => rfl
      | bits h' => exact absurd h' h
      | text h' => exact absurd h' h

/-! ## C126 -/

/-- C126: what `to_ipv4_string()` returns, for every mode. -/
theorem C126_ipv4 (db : NetDb) (mode : BitVec 32) (a : Addr) (s : Str) :
    a.toIpv4String db mode = .ok s ↔
      ∃ x y z, s = x ++ y ++ z ∧ Address4 mode (ip a.getIpv6.addr) x ∧ PortShown db mode a.protocol a.getPort y
        ∧ Mask4 mode (ip a.getMask) z := by
  rw [Addr.toIpv4String]
  constructor
  · intro h
    cases h1 : a.addressPart4 mode with
    | ok x =>
      rw [h1, Res.bind_ok] at h
      cases h2 : a.portPart db mode with
      | ok y =>
        rw [h2, Res.bind_ok] at h
        cases h3 : a.maskPart4 mode with
        | ok z =>
          rw [h3, Res.bind_ok] at h
          exact ⟨x, y, z, (Res.ok.inj h).symm, (address4_iff mode a x).1 h1, (port_iff db mode a y).1 h2, (mask4_iff mode a z).1 h3⟩
        | throw e => rw [h3] at h; exact nomatch h
        | ub w => rw [h3] at h; exact nomatch h
      | throw e => rw [h2] at h; exact nomatch h
      | ub w => rw [h2] at h; exact nomatch h
    | throw e => rw [h1] at h; exact nomatch h
    | ub w => rw [h1] at h; exact nomatch h
  · rintro ⟨x, y, z, rfl, h1, h2, h3⟩
    rw [(address4_iff mode a x).2 h1, Res.bind_ok, (port_iff db mode a y).2 h2, Res.bind_ok, (mask4_iff mode a z).2 h3, Res.bind_ok]

/-- C126: what `to_ipv6_string()` returns, for every mode. -/
theorem C126_ipv6 (db : NetDb) (mode : BitVec 32) (a : Addr) (s : Str) :
    a.toIpv6String db mode = .ok s ↔
      ∃ x y z, s = x ++ y ++ z ∧ Address6 mode (ip a.getIpv6.addr) x ∧ PortShown db mode a.protocol a.getPort y
        ∧ Mask6 mode (ip a.getIpv6.addr) (ip a.getMask) z := by
  rw [Addr.toIpv6String]
  constructor
  · intro h
    cases h2 : a.portPart db mode with
    | ok y =>
      rw [h2, Res.bind_ok] at h
      exact ⟨_, y, _, (Res.ok.inj h).symm, (address6_iff mode a _).1 rfl, (port_iff db mode a y).1 h2, (mask6_iff mode a _).1 rfl⟩
    | throw e => rw [h2] at h; exact nomatch h
    | ub w => rw [h2] at h; exact nomatch h
  · rintro ⟨x, y, z, rfl, h1, h2, h3⟩
    rw [(port_iff db mode a y).2 h2, Res.bind_ok, (address6_iff mode a x).2 h1, (mask6_iff mode a z).2 h3]

/-- C126: `to_ipv4or6_string()` is the one of the two which the address calls for. -/
theorem C126_ipv4or6 (db : NetDb) (mode : BitVec 32) (a : Addr) (s : Str) :
    a.toIpv4or6String db mode = .ok s ↔
      ∃ x y z, s = x ++ y ++ z ∧ PortShown db mode a.protocol a.getPort y
        ∧ (isV4 (ip a.getIpv6.addr) → Address4 mode (ip a.getIpv6.addr) x ∧ Mask4 mode (ip a.getMask) z)
        ∧ (¬ isV4 (ip a.getIpv6.addr) → Address6 mode (ip a.getIpv6.addr) x ∧ Mask6 mode (ip a.getIpv6.addr) (ip a.getMask) z) := by
  rw [Addr.toIpv4or6String]
  by_cases h4 : isV4 (ip a.getIpv6.addr)
  · rw [if_pos ((isIpv4_iff a).2 h4), C126_ipv4]
    constructor
    · rintro ⟨x, y, z, h, h1, h2, h3⟩; exact ⟨x, y, z, h, h2, fun _ => ⟨h1, h3⟩, fun h => absurd h4 h⟩
    · rintro ⟨x, y, z, h, h2, h3, _⟩; exact ⟨x, y, z, h, (h3 h4).1, h2, (h3 h4).2⟩
  · rw [if_neg (fun e => h4 ((isIpv4_iff a).1 e)), C126_ipv6]
    constructor
    · rintro ⟨x, y, z, h, h1, h2, h3⟩; exact ⟨x, y, z, h, h2, fun h => absurd h h4, fun _ => ⟨h1, h3⟩⟩
    · rintro ⟨x, y, z, h, h2, _, h3⟩; exact ⟨x, y, z, h, (h3 h4).1, h2, (h3 h4).2⟩

/-- C126: `to_ipv4_string()` and `to_ipv6_string()` of an address without a text in the mode: the first throws when the address
has to be printed and is not one of IPv4 or when the mask has to be and is not one of IPv4; otherwise the name of the port is
asked for and the protocol is not known. -/
theorem C126_refused (db : NetDb) (mode : BitVec 32) (a : Addr) :
    (∀ e, a.toIpv6String db mode ≠ .throw e)
      ∧ ((∃ w, a.toIpv6String db mode = .ub w) ↔ Asks mode 3 ∧ db.protoByNumber a.protocol = .notFound)
      ∧ (a.toIpv4String db mode = .throw .invalidState ↔ AsksAddress mode ∧ ¬ isV4 (ip a.getIpv6.addr))
      ∧ (a.toIpv4String db mode = .throw .unexpectedMask ↔
          (AsksAddress mode → isV4 (ip a.getIpv6.addr)) ∧ ¬ (Asks mode 3 ∧ db.protoByNumber a.protocol = .notFound)
            ∧ AsksMask mode (ip a.getMask) ∧ ¬ ip a.getMask / 2 ^ 32 = 2 ^ 96 - 1)
      ∧ ((∃ w, a.toIpv4String db mode = .ub w) ↔ (AsksAddress mode → isV4 (ip a.getIpv6.addr))
          ∧ Asks mode 3 ∧ db.protoByNumber a.protocol = .notFound) := by
  have hub := portPart_ub db mode a
  rw [asks_3] at hub
  have hx : (AsksAddress mode ∧ ¬ isV4 (ip a.getIpv6.addr) ∧ a.addressPart4 mode = .throw .invalidState)
      ∨ ((AsksAddress mode → isV4 (ip a.getIpv6.addr)) ∧ ∃ x, a.addressPart4 mode = .ok x) := by
    by_cases h : AsksAddress mode
    · by_cases h4 : isV4 (ip a.getIpv6.addr)
      · right
        refine ⟨fun _ => h4, ?_⟩
        by_cases h8 : isAny (ip a.getIpv6.addr) ∧ Asks mode 8
        · exact ⟨_, (address4_iff mode a _).2 (.star h h4 h8.1 h8.2)⟩
        · exact ⟨_, (address4_iff mode a _).2 (.dots h h4 fun h1 h2 => h8 ⟨h1, h2⟩)⟩
      · left
        refine ⟨h, h4, ?_⟩
        rw [Addr.addressPart4, if_pos ((asks_address mode).2 h), if_neg (fun e => h4 ((isIpv4_iff a).1 e))]
    · exact .inr ⟨fun h' => absurd h' h, [], (address4_iff mode a _).2 (.nothing h)⟩
  have hz : (AsksMask mode (ip a.getMask) ∧ ¬ ip a.getMask / 2 ^ 32 = 2 ^ 96 - 1 ∧ a.maskPart4 mode = .throw .unexpectedMask)
      ∨ ((AsksMask mode (ip a.getMask) → ip a.getMask / 2 ^ 32 = 2 ^ 96 - 1) ∧ ∃ z, a.maskPart4 mode = .ok z) := by
    rw [Addr.maskPart4]
    by_cases h : AsksMask mode (ip a.getMask)
    · rw [if_pos ((asks_mask mode a).2 h)]
      by_cases hc : ip a.getMask / 2 ^ 32 = 2 ^ 96 - 1
      · rw [if_pos ((maskCompatible_iff a).2 hc)]
        exact .inr ⟨fun _ => hc, _, rfl⟩
      · rw [if_neg (fun e => hc ((maskCompatible_iff a).1 e))]
        exact .inl ⟨h, hc, rfl⟩
    · rw [if_neg (fun e => h ((asks_mask mode a).1 e))]
      exact .inr ⟨fun h' => absurd h' h, _, rfl⟩
  rw [Addr.toIpv6String, Addr.toIpv4String]
  rw [← hub]
  rcases portPart_cases db mode a with ⟨y, hy⟩ | ⟨w, hy⟩
  · have hn : ¬ ∃ w, a.portPart db mode = .ub w := by rintro ⟨w, hw⟩; rw [hy] at hw; exact nomatch hw
    refine ⟨fun e => ?_, ?_, ?_, ?_, ?_⟩
    · rw [hy]; exact fun h => nomatch h
    · exact ⟨fun ⟨w, hw⟩ => (by rw [hy] at hw; exact nomatch hw), fun h => absurd h hn⟩
    · rcases hx with ⟨h1, h2, h3⟩ | ⟨h1, x, h2⟩
      · rw [h3]; exact ⟨fun _ => ⟨h1, h2⟩, fun _ => rfl⟩
      · rw [h2, Res.bind_ok, hy, Res.bind_ok]
        refine ⟨fun h => ?_, fun h => absurd (h1 h.1) h.2⟩
        rcases hz with ⟨_, _, h5⟩ | ⟨_, z, h5⟩ <;> rw [h5] at h <;> exact nomatch h
    · rcases hx with ⟨h1, h2, h3⟩ | ⟨h1, x, h2⟩
      · rw [h3]; exact ⟨(fun h => nomatch h), fun h => absurd (h.1 h1) h2⟩
      · rw [h2, Res.bind_ok, hy, Res.bind_ok]
        rcases hz with ⟨h3, h4, h5⟩ | ⟨h3, z, h5⟩
        · rw [h5]; exact ⟨fun _ => ⟨h1, fun h => hn (hy ▸ h), h3, h4⟩, fun _ => rfl⟩
        · rw [h5]; exact ⟨(fun h => nomatch h), fun h => absurd (h3 h.2.2.1) h.2.2.2⟩
    · rcases hx with ⟨h1, h2, h3⟩ | ⟨h1, x, h2⟩
      · rw [h3]; exact ⟨(fun ⟨w, h⟩ => nomatch h), fun h => absurd (h.1 h1) h2⟩
      · rw [h2, Res.bind_ok, hy, Res.bind_ok]
        refine ⟨fun ⟨w, h⟩ => ?_, fun h => absurd (hy ▸ h.2) hn⟩
        rcases hz with ⟨_, _, h5⟩ | ⟨_, z, h5⟩ <;> rw [h5] at h <;> exact nomatch h
  · refine ⟨fun e => ?_, ?_, ?_, ?_, ?_⟩
    · rw [hy]; exact fun h => nomatch h
    · rw [hy]; exact ⟨fun _ => ⟨w, rfl⟩, fun _ => ⟨w, rfl⟩⟩
    · rcases hx with ⟨h1, h2, h3⟩ | ⟨h1, x, h2⟩
      · rw [h3]; exact ⟨fun _ => ⟨h1, h2⟩, fun _ => rfl⟩
      · rw [h2, Res.bind_ok, hy]
        exact ⟨(fun h => nomatch h), fun h => absurd (h1 h.1) h.2⟩
    · rcases hx with ⟨h1, h2, h3⟩ | ⟨h1, x, h2⟩
      · rw [h3]; exact ⟨(fun h => nomatch h), fun h => absurd (h.1 h1) h2⟩
      · rw [h2, Res.bind_ok, hy]
        exact ⟨(fun h => nomatch h), fun h => absurd ⟨w, rfl⟩ h.2.1⟩
    · rcases hx with ⟨h1, h2, h3⟩ | ⟨h1, x, h2⟩
      · rw [h3]; exact ⟨(fun ⟨w, h⟩ => nomatch h), fun h => absurd (h.1 h1) h2⟩
      · rw [h2, Res.bind_ok, hy]
        exact ⟨fun _ => ⟨h1, w, rfl⟩, fun _ => ⟨w, rfl⟩⟩

/-- The flags of a mode which have a meaning. -/
def Spec.known (mode : BitVec 32) : BitVec 32 := mode &&& 0x3ff

/-- C126: the other flags of a mode have no effect. -/
theorem C126_flags (db : NetDb) (m n : BitVec 32) (a : Addr) (h : known m = known n) :
    a.toIpv4String db m = a.toIpv4String db n ∧ a.toIpv6String db m = a.toIpv6String db n
      ∧ a.toIpv4or6String db m = a.toIpv4or6String db n := by
  have key : ∀ f : BitVec 32, 0x3ff &&& f = f → anyOf m f = anyOf n f := by
    intro f hf
    unfold anyOf
    rw [← hf, ← BitVec.and_assoc, ← BitVec.and_assoc]
    unfold known at h
    rw [h]
  have k0 := key _ (show 0x3ff &&& (STRING_IP_ADDRESS ||| STRING_IP_BRACKET_ADDRESS) = _ by decide)
  have k1 := key _ (show 0x3ff &&& (STRING_IP_PORT ||| STRING_IP_PORT_NAME) = _ by decide)
  have k2 := key _ (show 0x3ff &&& STRING_IP_PORT_NAME = _ by decide)
  have k3 := key _ (show 0x3ff &&& STRING_IP_DEFAULT_AS_ASTERISK = _ by decide)
  have k4 := key _ (show 0x3ff &&& STRING_IP_DEFAULT_AS_IPV4 = _ by decide)
  have k5 := key _ (show 0x3ff &&& STRING_IP_MASK_IF_NEEDED = _ by decide)
  have k6 := key _ (show 0x3ff &&& STRING_IP_MASK_AS_ADDRESS = _ by decide)
  have k7 := key _ (show 0x3ff &&& (STRING_IP_MASK ||| STRING_IP_BRACKET_MASK ||| STRING_IP_MASK_AS_ADDRESS
    ||| STRING_IP_MASK_IF_NEEDED) = _ by decide)
  have k8 := key _ (show 0x3ff &&& (STRING_IP_ADDRESS ||| STRING_IP_BRACKET_ADDRESS ||| STRING_IP_PORT ||| STRING_IP_PORT_NAME)
    = _ by decide)
  have k9 := key _ (show 0x3ff &&& (STRING_IP_BRACKET_ADDRESS ||| STRING_IP_BRACKET_MASK ||| STRING_IP_PORT
    ||| STRING_IP_PORT_NAME) = _ by decide)
  have p1 : a.addressPart4 m = a.addressPart4 n := by unfold Addr.addressPart4; rw [k0, k3]
  have p2 : a.portPart db m = a.portPart db n := by unfold Addr.portPart; rw [k0, k1, k2]
  have p3 : a.wantsMask m = a.wantsMask n := by unfold Addr.wantsMask; rw [k5, k7]
  have p4 : Addr.maskSlash m = Addr.maskSlash n := by unfold Addr.maskSlash; rw [k8]
  have p5 : a.maskBits m = a.maskBits n := by unfold Addr.maskBits; rw [k6]
  have p6 : Addr.includeBrackets m = Addr.includeBrackets n := by unfold Addr.includeBrackets; rw [k9]
  have p7 : a.addressPart6 m = a.addressPart6 n := by unfold Addr.addressPart6; rw [p6, k0, k3, k4]
  have e4 : a.toIpv4String db m = a.toIpv4String db n := by
    rw [Addr.toIpv4String, Addr.toIpv4String, p1, p2, Addr.maskPart4, Addr.maskPart4, p3, p4, p5]
  have e6 : a.toIpv6String db m = a.toIpv6String db n := by
    rw [Addr.toIpv6String, Addr.toIpv6String, p2, p7, Addr.maskPart6, Addr.maskPart6, p3, p4, p5]
  refine ⟨e4, e6, ?_⟩
  rw [Addr.toIpv4or6String, Addr.toIpv4or6String, e4, e6]

/-! ### The text gives the address -/

/-- The texts of the default addresses. -/
def defaultTexts : List Str := ["*".toList, "[*]".toList, "0.0.0.0".toList, "::".toList, "[::]".toList]

theorem text6_bytes {b : Bytes16} {t : Str} (h : Text6 (ip b) t) : t = ntop6 b := C22_canonical_unique h (ntop6_text b)

theorem printed_kind {mode : BitVec 32} {a : Addr} {x : Str} (h : AsksAddress mode)
    (h4 : isV4 (ip a.bytes) → Address4 mode (ip a.bytes) x) (h6 : ¬ isV4 (ip a.bytes) → Address6 mode (ip a.bytes) x) :
    (isAny (ip a.bytes) ∧ x ∈ defaultTexts) ∨ (isV4 (ip a.bytes) ∧ x = ntop4 (last4 a.bytes))
      ∨ (¬ isV4 (ip a.bytes) ∧ Boxed (AsksBrackets mode) (ntop6 a.bytes) x) := by
  by_cases hv : isV4 (ip a.bytes)
  · cases h4 hv with
    | nothing hn => exact absurd h hn
    | star _ _ hd => exact .inl ⟨hd, by decide⟩
    | dots => exact .inr (.inl ⟨hv, by rw [← ip4_last4, ← ntop4_dotted]⟩)
  · cases h6 hv with
    | nothing hn => exact absurd h hn
    | star _ hd _ hs => cases hs <;> exact .inl ⟨hd, by decide⟩
    | zeros hz => exact .inl ⟨hz.2.1, by rw [show dotted 0 = "0.0.0.0".toList by decide +kernel]; decide⟩
    | any _ hd _ _ ht hs =>
      rw [C22_canonical_unique ht text6_zero] at hs
      cases hs <;> exact .inl ⟨hd, by decide⟩
    | other _ _ ht hs => rw [text6_bytes ht] at hs; exact .inr (.inr ⟨hv, hs⟩)

theorem boxed_unique {b : Prop} {t u s : Str} (h : Boxed b t s) (h' : Boxed b u s) : t = u := by
  cases h with
  | box hb =>
    generalize hs : '[' :: (t ++ [']']) = s at h'
    cases h' with
    | box =>
      simp only [List.cons.injEq, true_and, List.append_cancel_right_eq] at hs
      exact hs
    | bare hn => exact absurd hb hn
  | bare hn =>
    cases h' with
    | box hb => exact absurd hb hn
    | bare => rfl

/-- An address which is printed as a default address is one. -/
theorem default_text {b : Prop} {a : Addr} {x : Str} (hx : x ∈ defaultTexts)
    (h : (isV4 (ip a.bytes) ∧ x = ntop4 (last4 a.bytes)) ∨ (¬ isV4 (ip a.bytes) ∧ Boxed b (ntop6 a.bytes) x)) :
    isAny (ip a.bytes) := by
  rcases h with ⟨h4, rfl⟩ | ⟨h4, hb⟩
  · have hc : ∀ c ∈ ntop4 (last4 a.bytes), c ∈ "0123456789.".toList := fun c hc => ntop4_chars _ c hc
    simp only [defaultTexts, List.mem_cons, List.not_mem_nil, or_false] at hx
    rcases hx with hx | hx | hx | hx | hx
    · exact absurd (hc '*' (by rw [hx]; decide)) (by decide)
    · exact absurd (hc '*' (by rw [hx]; decide)) (by decide)
    · have h1 := congrArg pton4 hx
      rw [pton4_ntop4, show pton4 "0.0.0.0".toList = some #v[0, 0, 0, 0] by decide +kernel] at h1
      have h2 := ip4_last4 a.bytes
      rw [Option.some.inj h1, show ip4 #v[0, 0, 0, 0] = 0 by decide +kernel] at h2
      left
      have e0 : v4 0 0 0 0 = 0xffff00000000 := by decide
      rw [e0]
      unfold isV4 inBlock at h4
      omega
    · exact absurd (hc ':' (by rw [hx]; decide)) (by decide)
    · exact absurd (hc ':' (by rw [hx]; decide)) (by decide)
  · have hc : ∀ c ∈ ntop6 a.bytes, c ∈ "0123456789abcdef:.".toList := fun c hc => ntop6_chars _ c hc
    have zero : ntop6 a.bytes = "::".toList → isAny (ip a.bytes) := by
      intro e
      have h1 := congrArg pton6 e
      rw [pton6_ntop6, show pton6 "::".toList = some (Vector.replicate 16 0) by decide +kernel] at h1
      rw [Option.some.inj h1]; exact .inr (by decide +kernel)
    simp only [defaultTexts, List.mem_cons, List.not_mem_nil, or_false] at hx
    cases hb with
    | bare _ =>
      rcases hx with hx | hx | hx | hx | hx
      · exact absurd (hc '*' (by rw [hx]; decide)) (by decide)
      · exact absurd (hc '*' (by rw [hx]; decide)) (by decide)
      · have h1 := congrArg pton6 hx
        rw [pton6_ntop6, show pton6 "0.0.0.0".toList = none by decide +kernel] at h1
        exact nomatch h1
      · exact zero hx
      · exact absurd (hc '[' (by rw [hx]; decide)) (by decide)
    | box _ =>
      rcases hx with hx | hx | hx | hx | hx
      · exact absurd (List.cons.inj hx).1 (by decide)
      · have hm : '*' ∈ '[' :: (ntop6 a.bytes ++ [']']) := by rw [hx]; decide
        simp only [List.mem_cons, List.mem_append, List.not_mem_nil, or_false] at hm
        rcases hm with hm | hm | hm
        · exact absurd hm (by decide)
        · exact absurd (hc '*' hm) (by decide)
        · exact absurd hm (by decide)
      · exact absurd (List.cons.inj hx).1 (by decide)
      · exact absurd (List.cons.inj hx).1 (by decide)
      · apply zero
        have e : "[::]".toList = '[' :: ("::".toList ++ [']']) := by decide
        rw [e, List.cons.injEq, List.append_cancel_right_eq] at hx
        exact hx.2

/-- The rest of the text after the address. -/
theorem after_address {db : NetDb} {mode : BitVec 32} {protocol : Int} {port v mask : Nat} {y z : Str} (h : AsksAddress mode)
    (hy : PortShown db mode protocol port y) (hz : Mask4 mode mask z ∨ Mask6 mode v mask z) :
    (AsksPort mode ∧ ∃ r, y ++ z = ':' :: r) ∨ (¬ AsksPort mode ∧ (y ++ z = [] ∨ ∃ r, y ++ z = '/' :: r)) := by
  have slash : ∀ {w}, Joined (AsksAddress mode ∨ AsksPort mode) '/' w z → ∃ r, z = '/' :: r := by
    intro w hj
    cases hj with
    | after => exact ⟨_, rfl⟩
    | first hn => exact absurd (.inl h) hn
  cases hy with
  | nothing hn =>
    refine .inr ⟨hn, ?_⟩
    rw [List.nil_append]
    rcases hz with hz | hz
    · cases hz with
      | nothing => exact .inl rfl
      | bits _ _ _ hs => exact .inr (slash hs)
      | dots _ _ _ hs => exact .inr (slash hs)
    · cases hz with
      | nothing => exact .inl rfl
      | bits _ _ hs => exact .inr (slash hs)
      | text _ _ _ _ hs => exact .inr (slash hs)
  | shown hp _ hs =>
    refine .inl ⟨hp, ?_⟩
    cases hs with
    | after => exact ⟨_, rfl⟩
    | first hn => exact absurd h hn

/-- What is between the brackets of an address, or the address before a colon. -/
theorem before_colon {mode : BitVec 32} {a : Addr} {x : Str} (h : AsksAddress mode) (hp : AsksPort mode)
    (h4 : isV4 (ip a.bytes) → Address4 mode (ip a.bytes) x) (h6 : ¬ isV4 (ip a.bytes) → Address6 mode (ip a.bytes) x) :
    (∃ t, x = '[' :: (t ++ [']']) ∧ ']' ∉ t) ∨ (∃ c t, x = c :: t ∧ c ≠ '[' ∧ ':' ∉ x) := by
  have hb : AsksBrackets mode := .inr (.inr hp)
  have dots : ∀ b : Bytes4, ∃ c t, ntop4 b = c :: t ∧ c ≠ '[' ∧ ':' ∉ ntop4 b := by
    intro b
    have hc := ntop4_chars b
    cases he : ntop4 b with
    | nil =>
      have h1 : '.' ∈ ntop4 b := by simp [ntop4]
      rw [he] at h1; exact nomatch h1
    | cons c t =>
      refine ⟨c, t, rfl, ?_, ?_⟩
      · rintro rfl
        exact absurd (hc '[' (by rw [he]; simp)) (by decide)
      · intro hm
        rw [← he] at hm
        exact absurd (hc ':' hm) (by decide)
  by_cases hv : isV4 (ip a.bytes)
  · cases h4 hv with
    | nothing hn => exact absurd h hn
    | star => exact .inr ⟨'*', [], rfl, by decide, by decide⟩
    | dots =>
      rw [← ip4_last4, ← ntop4_dotted]
      exact .inr (dots _)
  · have box : ∀ {t s}, ']' ∉ t → Boxed (AsksBrackets mode) t s → ∃ t, s = '[' :: (t ++ [']']) ∧ ']' ∉ t := by
      intro t s ht hs
      cases hs with
      | box => exact ⟨t, rfl, ht⟩
      | bare hn => exact absurd hb hn
    cases h6 hv with
    | nothing hn => exact absurd h hn
    | star _ _ _ hs => exact .inl (box (by decide) hs)
    | zeros =>
      rw [show dotted 0 = "0.0.0.0".toList by decide +kernel]
      exact .inr ⟨'0', ".0.0.0".toList, rfl, by decide, by decide⟩
    | any _ _ _ _ ht hs =>
      rw [C22_canonical_unique ht text6_zero] at hs
      exact .inl (box (by decide) hs)
    | other _ _ ht hs =>
      rw [text6_bytes ht] at hs
      exact .inl (box (fun hm => absurd (ntop6_chars _ _ hm) (by decide)) hs)

theorem address_no_slash {mode : BitVec 32} {a : Addr} {x : Str} (h : AsksAddress mode)
    (h4 : isV4 (ip a.bytes) → Address4 mode (ip a.bytes) x) (h6 : ¬ isV4 (ip a.bytes) → Address6 mode (ip a.bytes) x) :
    '/' ∉ x := by
  rcases printed_kind h h4 h6 with ⟨_, hx⟩ | ⟨_, rfl⟩ | ⟨_, hs⟩
  · have : ∀ x ∈ defaultTexts, '/' ∉ x := by decide
    exact this x hx
  · exact fun hm => absurd (ntop4_chars _ _ hm) (by decide)
  · have hn : '/' ∉ ntop6 a.bytes := fun hm => absurd (ntop6_chars _ _ hm) (by decide)
    cases hs with
    | bare => exact hn
    | box =>
      intro hm
      simp only [List.mem_cons, List.mem_append, List.not_mem_nil, or_false] at hm
      rcases hm with hm | hm | hm
      · exact absurd hm (by decide)
      · exact hn hm
      · exact absurd hm (by decide)

/-- C126: in a mode which asks for the address, two addresses with the same text are the same, or both are default
addresses. -/
theorem C126_identifies (db : NetDb) (mode : BitVec 32) (a b : Addr) (s : Str) (h : AsksAddress mode)
    (ha : a.toIpv4or6String db mode = .ok s) (hb : b.toIpv4or6String db mode = .ok s) :
    ip a.getIpv6.addr = ip b.getIpv6.addr ∨ (isAny (ip a.getIpv6.addr) ∧ isAny (ip b.getIpv6.addr)) := by
  obtain ⟨x, y, z, e, hy, h4, h6⟩ := (C126_ipv4or6 db mode a s).1 ha
  obtain ⟨x', y', z', e', hy', h4', h6'⟩ := (C126_ipv4or6 db mode b s).1 hb
  have g4 := fun hv => (h4 hv).1
  have g6 := fun hv => (h6 hv).1
  have g4' := fun hv => (h4' hv).1
  have g6' := fun hv => (h6' hv).1
  have hz : Mask4 mode (ip a.getMask) z ∨ Mask6 mode (ip a.getIpv6.addr) (ip a.getMask) z := by
    by_cases hv : isV4 (ip a.getIpv6.addr)
    · exact .inl (h4 hv).2
    · exact .inr (h6 hv).2
  have hz' : Mask4 mode (ip b.getMask) z' ∨ Mask6 mode (ip b.getIpv6.addr) (ip b.getMask) z' := by
    by_cases hv : isV4 (ip b.getIpv6.addr)
    · exact .inl (h4' hv).2
    · exact .inr (h6' hv).2
  have r := after_address h hy hz
  have r' := after_address h hy' hz'
  have hs : x ++ (y ++ z) = x' ++ (y' ++ z') := by rw [← List.append_assoc, ← List.append_assoc, ← e, ← e']
  have hx : x = x' := by
    rcases r with ⟨hp, t, ht⟩ | ⟨hp, ht⟩
    · obtain ⟨_, t', ht'⟩ : AsksPort mode ∧ ∃ r, y' ++ z' = ':' :: r := r'.resolve_right fun hn => hn.1 hp
      rw [ht, ht'] at hs
      rcases before_colon h hp g4 g6 with ⟨u, rfl, hu⟩ | ⟨c, u, rfl, hc, hu⟩
      · rcases before_colon h hp g4' g6' with ⟨u', rfl, hu'⟩ | ⟨c', u', rfl, hc', hu'⟩
        · simp only [List.cons_append, List.append_assoc, List.singleton_append] at hs
          have := (cut_inj hu hu' (List.cons.inj hs).2).1
          rw [this]
        · exact absurd (List.cons.inj hs).1.symm hc'
      · rcases before_colon h hp g4' g6' with ⟨u', rfl, hu'⟩ | ⟨c', u', rfl, hc', hu'⟩
        · exact absurd (List.cons.inj hs).1 hc
        · exact (cut_inj hu hu' hs).1
    · obtain ⟨_, ht'⟩ : ¬ AsksPort mode ∧ (y' ++ z' = [] ∨ ∃ r, y' ++ z' = '/' :: r) := r'.resolve_left fun hn => hp hn.1
      have n := address_no_slash h g4 g6
      have n' := address_no_slash h g4' g6'
      rcases ht with ht | ⟨t, ht⟩ <;> rcases ht' with ht' | ⟨t', ht'⟩ <;> rw [ht, ht'] at hs
      · simpa using hs
      · exfalso
        rw [List.append_nil] at hs
        exact n (by rw [hs]; simp)
      · exfalso
        rw [List.append_nil] at hs
        exact n' (by rw [← hs]; simp)
      · exact (cut_inj n n' hs).1
  subst hx
  rcases printed_kind h g4 g6 with ⟨hd, hm⟩ | hk
  · rcases printed_kind h g4' g6' with ⟨hd', _⟩ | hk'
    · exact .inr ⟨hd, hd'⟩
    · exact .inr ⟨hd, default_text hm hk'⟩
  · rcases printed_kind h g4' g6' with ⟨hd', hm'⟩ | hk'
    · exact .inr ⟨default_text hm' hk, hd'⟩
    · left
      apply congrArg ip
      have mixed : ∀ {c : Bytes16} {d : Bytes4}, Boxed (AsksBrackets mode) (ntop6 c) x → x ≠ ntop4 d := by
        intro c d hs e
        have hc := ntop4_chars d
        rw [← e] at hc
        cases hs with
        | box => exact absurd (hc '[' (by simp)) (by decide)
        | bare => exact absurd (hc ':' (colon_mem_ntop6 c)) (by decide)
      rcases hk with ⟨hv, hk⟩ | ⟨hv, hk⟩ <;> rcases hk' with ⟨hv', hk'⟩ | ⟨hv', hk'⟩
      · have h1 := congrArg pton4 (hk.symm.trans hk')
        rw [pton4_ntop4, pton4_ntop4] at h1
        exact last4_inj hv hv' (Option.some.inj h1)
      · exact absurd hk (mixed hk')
      · exact absurd hk' (mixed hk)
      · have h1 := congrArg pton6 (boxed_unique hk hk')
        rw [pton6_ntop6, pton6_ntop6] at h1
        exact Option.some.inj h1

/-- C126: the mode for sockets. It never fails, and each address has one text: the address, between brackets if it is of IPv6, and the
port. -/
theorem C126_address_port (db : NetDb) (a : Addr) (s : Str) :
    a.toIpv4or6String db STRING_IP_ADDRESS_PORT = .ok s ↔
      (isV4 (ip a.getIpv6.addr) ∧ s = dotted (ip a.getIpv6.addr % 2 ^ 32) ++ ':' :: dec a.getPort)
        ∨ (¬ isV4 (ip a.getIpv6.addr) ∧ ∃ t, Text6 (ip a.getIpv6.addr) t ∧ s = '[' :: t ++ "]:".toList ++ dec a.getPort) := by
  have b : ∀ i, i ∈ [0, 3, 4, 5, 6, 7, 8, 9] → ¬ Asks STRING_IP_ADDRESS_PORT i := by decide
  have h1 : Asks STRING_IP_ADDRESS_PORT 1 := by decide
  have ha : AsksAddress STRING_IP_ADDRESS_PORT := .inr h1
  have hb : AsksBrackets STRING_IP_ADDRESS_PORT := .inl h1
  have hp : AsksPort STRING_IP_ADDRESS_PORT := .inl (by decide)
  have hm : ∀ m, ¬ AsksMask STRING_IP_ADDRESS_PORT m := by
    rintro m ⟨h | h | h | h, _⟩ <;> exact b _ (by decide) h
  have hz : ∀ v, ¬ AsZeros STRING_IP_ADDRESS_PORT v := fun v h => b 9 (by decide) h.2.2.2
  have hport : ∀ y, PortShown db STRING_IP_ADDRESS_PORT a.protocol a.getPort y ↔ y = ':' :: dec a.getPort := by
    intro y
    constructor
    · rintro (h | ⟨_, hw, hs⟩)
      · exact absurd hp h
      · cases hs with
        | first h => exact absurd ha h
        | after _ =>
          cases hw with
          | number _ => rfl
          | named h => exact absurd h (b 3 (by decide))
          | unnamed h => exact absurd h (b 3 (by decide))
    · rintro rfl
      exact .shown hp (.number (b 3 (by decide))) (.after ha)
  rw [C126_ipv4or6]
  constructor
  · rintro ⟨x, y, z, rfl, hy, h4, h6⟩
    rw [hport] at hy
    subst hy
    by_cases hv : isV4 (ip a.getIpv6.addr)
    · left
      obtain ⟨hx, hz'⟩ := h4 hv
      have e : z = [] := by cases hz' with
        | nothing _ => rfl
        | bits h => exact absurd h (hm _)
        | dots h => exact absurd h (hm _)
      subst e
      cases hx with
      | nothing h => exact absurd ha h
      | star _ _ _ h => exact absurd h (b 8 (by decide))
      | dots => exact ⟨hv, by simp⟩
    · right
      obtain ⟨hx, hz'⟩ := h6 hv
      have e : z = [] := by cases hz' with
        | nothing _ => rfl
        | bits h => exact absurd h (hm _)
        | text h => exact absurd h (hm _)
      subst e
      have box : ∀ {t x : Str}, Boxed (AsksBrackets STRING_IP_ADDRESS_PORT) t x → x = '[' :: (t ++ [']']) := by
        rintro t x (_ | h)
        · rfl
        · exact absurd hb h
      refine ⟨hv, ?_⟩
      cases hx with
      | nothing h => exact absurd ha h
      | star _ _ h => exact absurd h (b 8 (by decide))
      | zeros h => exact absurd h (hz _)
      | any _ hd _ _ ht hs =>
        rw [box hs]
        rcases hd with h0 | h0
        · exact absurd (by rw [h0]; unfold isV4 inBlock; decide) hv
        · exact ⟨_, h0 ▸ ht, by simp⟩
      | other _ _ ht hs => rw [box hs]; exact ⟨_, ht, by simp⟩
  · rintro (⟨hv, rfl⟩ | ⟨hv, t, ht, rfl⟩)
    · exact ⟨_, _, [], by simp, (hport _).2 rfl, fun _ => ⟨.dots ha hv fun _ => b 8 (by decide), .nothing (hm _)⟩, fun h => absurd hv h⟩
    · refine ⟨'[' :: (t ++ [']']), _, [], by simp, (hport _).2 rfl, fun h => absurd h hv, fun _ => ⟨?_, .nothing (hm _)⟩⟩
      by_cases hd : isAny (ip a.getIpv6.addr)
      · rcases hd with h0 | h0
        · exact absurd (by rw [h0]; unfold isV4 inBlock; decide) hv
        · exact .any ha (.inr h0) (b 8 (by decide)) (b 9 (by decide)) (h0 ▸ ht) (.box hb)
      · exact .other ha hd ht (.box hb)

/-- C126: `[::1]:0`. -/
example : (sampleAddr #v[0, 0, 0, 0, 0, 0, 0, 0, 0, 0, 0, 0, 0, 0, 0, 1]).toIpv4or6String sampleDb STRING_IP_ADDRESS_PORT
    = .ok "[::1]:0".toList := by decide +kernel

/-- The name of `STRING_IP_NO_BRACKETS`: no brackets in the text. -/
def C126_claim : Prop := ∀ (db : NetDb) (a : Addr) (s : Str), a.toIpv4or6String db STRING_IP_NO_BRACKETS = .ok s → '[' ∉ s

/-- The port brings the brackets back. -/
theorem C126_claim_fails : ¬ C126_claim := by
  intro h
  have e : (sampleAddr #v[0, 0, 0, 0, 0, 0, 0, 0, 0, 0, 0, 0, 0, 0, 0, 1]).toIpv4or6String sampleDb STRING_IP_NO_BRACKETS
      = .ok "[::1]:0/128".toList := by decide +kernel
  exact h sampleDb _ _ e (by decide)

/-- C126: the text of an IPv6 address begins with a bracket exactly when the mode has one of four flags; a port is enough. -/
theorem C126_brackets_partial (db : NetDb) (mode : BitVec 32) (a : Addr) (s : Str) (h : AsksAddress mode)
    (h6 : ¬ isV4 (ip a.getIpv6.addr)) (hz : ¬ AsZeros mode (ip a.getIpv6.addr)) (hs : a.toIpv4or6String db mode = .ok s) :
    s.head? = some '[' ↔ Asks mode 1 ∨ Asks mode 2 ∨ Asks mode 3 ∨ Asks mode 5 := by
  obtain ⟨x, y, z, rfl, _, _, hx⟩ := (C126_ipv4or6 db mode a s).1 hs
  have hb : (Asks mode 1 ∨ Asks mode 2 ∨ Asks mode 3 ∨ Asks mode 5) ↔ AsksBrackets mode := by
    rw [AsksBrackets, AsksPort]
    constructor
    · rintro (h | h | h | h)
      · exact .inl h
      · exact .inr (.inr (.inl h))
      · exact .inr (.inr (.inr h))
      · exact .inr (.inl h)
    · rintro (h | h | h | h)
      · exact .inl h
      · exact .inr (.inr (.inr h))
      · exact .inr (.inl h)
      · exact .inr (.inr (.inl h))
  rw [hb]
  have key : ∀ {t}, t ≠ [] → '[' ∉ t → Boxed (AsksBrackets mode) t x → ((x ++ y ++ z).head? = some '[' ↔ AsksBrackets mode) := by
    intro t h0 ht hs
    cases hs with
    | box h => exact ⟨fun _ => h, fun _ => rfl⟩
    | bare h =>
      refine ⟨fun e => ?_, fun e => absurd e h⟩
      cases hx : x with
      | nil => exact absurd hx h0
      | cons c u =>
        rw [hx] at e ht
        exact absurd (by rw [Option.some.inj e]; simp) ht
  cases (hx h6).1 with
  | nothing hn => exact absurd h hn
  | star _ _ _ hs => exact key (by decide) (by decide) hs
  | zeros h => exact absurd h hz
  | any _ _ _ _ ht hs => rw [C22_canonical_unique ht text6_zero] at hs; exact key (by decide) (by decide) hs
  | other _ _ ht hs =>
    rw [show ip a.getIpv6.addr = ip a.bytes from rfl] at ht
    rw [text6_bytes ht] at hs
    refine key (fun e => ?_) (fun hm => absurd (ntop6_chars _ _ hm) (by decide)) hs
    have := colon_mem_ntop6 a.bytes
    rw [e] at this; exact nomatch this

/-- The hypotheses can be met: the loopback address in three modes, and the two default addresses in two. -/
example : (sampleAddr #v[0, 0, 0, 0, 0, 0, 0, 0, 0, 0, 0, 0, 0, 0, 0, 1]).toIpv4or6String sampleDb
        (STRING_IP_ADDRESS ||| STRING_IP_BRACKET_MASK) = .ok "[::1]/128".toList
    ∧ (sampleAddr #v[0, 0, 0, 0, 0, 0, 0, 0, 0, 0, 0, 0, 0, 0, 0, 1]).toIpv4or6String sampleDb
        (STRING_IP_ADDRESS ||| STRING_IP_MASK_IF_NEEDED) = .ok "::1".toList
    ∧ (sampleAddr #v[0, 0, 0, 0, 0, 0, 0, 0, 0, 0, 0, 0, 0, 0, 0, 1]).toIpv4or6String sampleDb
        (STRING_IP_ADDRESS ||| STRING_IP_MASK_AS_ADDRESS) = .ok "::1/ffff:ffff:ffff:ffff:ffff:ffff:ffff:ffff".toList
    ∧ (sampleAddr (Vector.replicate 16 0)).toIpv4or6String sampleDb
        (STRING_IP_ALL ||| STRING_IP_DEFAULT_AS_ASTERISK) = .ok "[*]:0/128".toList
    ∧ (sampleV4 0 0 0 0).toIpv4or6String sampleDb
        (STRING_IP_ALL ||| STRING_IP_DEFAULT_AS_ASTERISK) = .ok "*:0/32".toList
    ∧ (sampleAddr (Vector.replicate 16 0)).toIpv4or6String sampleDb
        (STRING_IP_ADDRESS_PORT ||| STRING_IP_DEFAULT_AS_IPV4) = .ok "0.0.0.0:0".toList
    ∧ (sampleV4 0 0 0 0).toIpv4or6String sampleDb
        (STRING_IP_ADDRESS_PORT ||| STRING_IP_DEFAULT_AS_IPV4) = .ok "0.0.0.0:0".toList := by decide +kernel

end Verif
