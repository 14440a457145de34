import Verif.SpecCase
import Verif.Lemmas.Parser

/-!
# Lemmas about texts which differ in the case of letters
-/

namespace Verif.Parser

open Verif.Spec

/-! ## Characters -/

theorem toLower_cases (c : Char) : c.toLower = c ∨ (65 ≤ c.toNat ∧ c.toNat ≤ 90 ∧ c.toLower.toNat = c.toNat + 32) := by
  rcases Classical.em (c.val ≥ 'A'.val ∧ c.val ≤ 'Z'.val) with h | h
  · right
    have h1 : 65 ≤ c.toNat := UInt32.le_iff_toNat_le.1 h.1
    have h2 : c.toNat ≤ 90 := UInt32.le_iff_toNat_le.1 h.2
    refine ⟨h1, h2, ?_⟩
    rw [Char.toLower, dif_pos h]
    show (c.val + ('a'.val - 'A'.val)).toNat = c.val.toNat + 32
    rw [UInt32.toNat_add]
    have : c.val.toNat ≤ 90 := h2
    show (c.val.toNat + 32) % 2 ^ 32 = _
    omega
  · left
    rw [Char.toLower, dif_neg h]

/-- A character which is not a letter. -/
def NoLetter (x : Char) : Prop := ¬ (65 ≤ x.toNat ∧ x.toNat ≤ 90) ∧ ¬ (97 ≤ x.toNat ∧ x.toNat ≤ 122)

instance (x : Char) : Decidable (NoLetter x) := inferInstanceAs (Decidable (_ ∧ _))

theorem toLower_eq_iff {c x : Char} (hx : NoLetter x) : c.toLower = x ↔ c = x := by
  rcases toLower_cases c with h | ⟨h1, h2, h3⟩
  · rw [h]
  · constructor
    · intro e
      rw [e] at h3
      exact absurd ⟨by omega, by omega⟩ hx.2
    · rintro rfl
      exact absurd ⟨h1, h2⟩ hx.1

theorem isSpace_lower (c : Char) : isSpace c.toLower = isSpace c := by
  unfold isSpace
  simp only [toLower_eq_iff (x := ' ') (by decide), toLower_eq_iff (x := '\t') (by decide), toLower_eq_iff (x := '\n') (by decide),
    toLower_eq_iff (x := '\x0b') (by decide), toLower_eq_iff (x := '\x0c') (by decide), toLower_eq_iff (x := '\r') (by decide)]

theorem le_iff_toNat (a b : Char) : a ≤ b ↔ a.toNat ≤ b.toNat := by
  show a.val ≤ b.val ↔ _
  exact UInt32.le_iff_toNat_le

theorem decVal_lower (c : Char) : Inet.decVal c.toLower = Inet.decVal c := by
  rcases toLower_cases c with h | ⟨h1, h2, h3⟩
  · rw [h]
  · unfold Inet.decVal
    rw [if_neg, if_neg]
    · rw [le_iff_toNat c '9']
      show ¬ (_ ∧ _ ≤ 57)
      omega
    · rw [le_iff_toNat _ '9']
      show ¬ (_ ∧ _ ≤ 57)
      omega

theorem hexVal_lower (c : Char) : Inet.hexVal c.toLower = Inet.hexVal c := by
  rcases toLower_cases c with h | ⟨h1, h2, h3⟩
  · rw [h]
  · unfold Inet.hexVal
    simp only [le_iff_toNat, h3, show '0'.toNat = 48 from rfl, show '9'.toNat = 57 from rfl, show 'a'.toNat = 97 from rfl,
      show 'f'.toNat = 102 from rfl, show 'A'.toNat = 65 from rfl, show 'F'.toNat = 70 from rfl]
    by_cases h70 : c.toNat ≤ 70
    · rw [if_neg (by omega), if_pos (by omega), if_neg (by omega), if_neg (by omega), if_pos (by omega)]
      congr 1
    · rw [if_neg (by omega), if_neg (by omega), if_neg (by omega), if_neg (by omega), if_neg (by omega), if_neg (by omega)]

/-! ## Texts -/

theorem lower_takeWhile {p : Char → Bool} (hp : ∀ c, p c.toLower = p c) (s : Str) : lower (s.takeWhile p) = (lower s).takeWhile p := by
  induction s with
  | nil => rfl
  | cons x s ih =>
    show _ = List.takeWhile p (x.toLower :: lower s)
    rw [List.takeWhile_cons, List.takeWhile_cons, hp]
    cases p x
    · rfl
    · show x.toLower :: lower _ = _
      rw [ih]
      rfl

theorem lower_dropWhile {p : Char → Bool} (hp : ∀ c, p c.toLower = p c) (s : Str) : lower (s.dropWhile p) = (lower s).dropWhile p := by
  induction s with
  | nil => rfl
  | cons x s ih =>
    show _ = List.dropWhile p (x.toLower :: lower s)
    rw [List.dropWhile_cons, List.dropWhile_cons, hp]
    cases p x
    · rfl
    · exact ih

theorem lower_length (s : Str) : (lower s).length = s.length := List.length_map ..

theorem same_length {s t : Str} (h : SameLetters s t) : s.length = t.length := by rw [← lower_length s, h, lower_length]

theorem same_nil {s t : Str} (h : SameLetters s t) : s = [] ↔ t = [] := by
  rw [← List.length_eq_zero_iff, ← List.length_eq_zero_iff, same_length h]

theorem sameLetters_refl (s : Str) : SameLetters s s := rfl

theorem same_takeWhile {p : Char → Bool} (hp : ∀ c, p c.toLower = p c) {s t : Str} (h : SameLetters s t) :
    SameLetters (s.takeWhile p) (t.takeWhile p) := by
  unfold SameLetters
  rw [lower_takeWhile hp, lower_takeWhile hp, h]

theorem same_dropWhile {p : Char → Bool} (hp : ∀ c, p c.toLower = p c) {s t : Str} (h : SameLetters s t) :
    SameLetters (s.dropWhile p) (t.dropWhile p) := by
  unfold SameLetters
  rw [lower_dropWhile hp, lower_dropWhile hp, h]

theorem same_drop {s t : Str} (h : SameLetters s t) (n : Nat) : SameLetters (s.drop n) (t.drop n) := by
  unfold SameLetters lower at h ⊢
  rw [List.map_drop, List.map_drop, h]

theorem same_take {s t : Str} (h : SameLetters s t) (n : Nat) : SameLetters (s.take n) (t.take n) := by
  unfold SameLetters lower at h ⊢
  rw [List.map_take, List.map_take, h]

theorem same_reverse {s t : Str} (h : SameLetters s t) : SameLetters s.reverse t.reverse := by
  unfold SameLetters lower at h ⊢
  rw [List.map_reverse, List.map_reverse, h]

theorem same_dropLast {s t : Str} (h : SameLetters s t) : SameLetters s.dropLast t.dropLast := by
  rw [List.dropLast_eq_take, List.dropLast_eq_take, same_length h]
  exact same_take h _

theorem same_head {s t : Str} (h : SameLetters s t) {x : Char} (hx : NoLetter x) : s.head? = some x ↔ t.head? = some x := by
  have key : ∀ s : Str, s.head? = some x ↔ (lower s).head? = some x := by
    intro s
    cases s with
    | nil => simp [lower]
    | cons y s => simp [lower, toLower_eq_iff hx]
  rw [key s, key t, h]

theorem same_getLast {s t : Str} (h : SameLetters s t) {x : Char} (hx : NoLetter x) : s.getLast? = some x ↔ t.getLast? = some x := by
  rw [List.getLast?_eq_head?_reverse, List.getLast?_eq_head?_reverse]
  exact same_head (same_reverse h) hx

theorem same_mem {s t : Str} (h : SameLetters s t) {x : Char} (hx : NoLetter x) : x ∈ s ↔ x ∈ t := by
  have key : ∀ s : Str, x ∈ s ↔ x ∈ lower s := by
    intro s
    unfold lower
    rw [List.mem_map]
    constructor
    · exact fun h => ⟨x, h, (toLower_eq_iff hx).2 rfl⟩
    · rintro ⟨y, h1, h2⟩
      rw [← (toLower_eq_iff hx).1 h2]
      exact h1
  rw [key s, key t, h]

theorem same_count {s t : Str} (h : SameLetters s t) {x : Char} (hx : NoLetter x) : s.count x = t.count x := by
  have key : ∀ s : Str, (lower s).count x = s.count x := by
    intro s
    induction s with
    | nil => rfl
    | cons y s ih =>
      show List.count x (y.toLower :: lower s) = _
      rw [List.count_cons, List.count_cons, ih]
      congr 1
      simp only [beq_iff_eq, toLower_eq_iff hx]
  rw [← key s, h, key t]

theorem same_trim {s t : Str} (h : SameLetters s t) : SameLetters (trimString s) (trimString t) :=
  same_reverse (same_dropWhile isSpace_lower (same_reverse (same_dropWhile isSpace_lower h)))

theorem splitFirst_lower {x : Char} (hx : NoLetter x) (s : Str) :
    splitFirst x (lower s) = (splitFirst x s).map fun r => (lower r.1, lower r.2) := by
  induction s with
  | nil => rfl
  | cons y s ih =>
    show splitFirst x (y.toLower :: lower s) = _
    rw [splitFirst, splitFirst]
    by_cases h : y = x
    · rw [if_pos h, if_pos ((toLower_eq_iff hx).2 h)]
      rfl
    · rw [if_neg h, if_neg (fun e => h ((toLower_eq_iff hx).1 e)), ih]
      cases splitFirst x s <;> rfl

theorem same_split {s t : Str} (h : SameLetters s t) {x : Char} (hx : NoLetter x) :
    (splitFirst x s = none ∧ splitFirst x t = none)
      ∨ ∃ a b a' b', splitFirst x s = some (a, b) ∧ splitFirst x t = some (a', b') ∧ SameLetters a a' ∧ SameLetters b b' := by
  have e := (splitFirst_lower hx s).symm.trans ((congrArg (splitFirst x) h).trans (splitFirst_lower hx t))
  cases h1 : splitFirst x s with
  | none =>
    rw [h1] at e
    cases h2 : splitFirst x t with
    | none => exact .inl ⟨rfl, rfl⟩
    | some r =>
      rw [h2] at e
      cases e
  | some r =>
    rw [h1] at e
    cases h2 : splitFirst x t with
    | none =>
      rw [h2] at e
      cases e
    | some r' =>
      rw [h2] at e
      have e := Prod.mk.inj (Option.some.inj e)
      exact .inr ⟨_, _, _, _, rfl, rfl, e.1, e.2⟩

theorem same_cstr {s t : Str} (h : SameLetters s t) : SameLetters (cstr s) (cstr t) := by
  unfold cstr
  refine same_takeWhile (fun c => ?_) h
  have := @toLower_eq_iff c '\x00' (by decide)
  by_cases hc : c = '\x00'
  · rw [this.2 hc, hc]
  · have h2 : c.toLower ≠ '\x00' := fun e => hc (this.1 e)
    simp [hc, h2]

theorem scanDigits_lower (limit : Nat) (s : Str) (acc : Nat) : scanDigits limit (lower s) acc = scanDigits limit s acc := by
  induction s generalizing acc with
  | nil => rfl
  | cons c s ih =>
    show scanDigits limit (c.toLower :: lower s) acc = _
    rw [scanDigits, scanDigits, decVal_lower]
    cases Inet.decVal c with
    | none => rfl
    | some d => simp only [ih]

theorem same_scanDigits {s t : Str} (h : SameLetters s t) (limit acc : Nat) : scanDigits limit s acc = scanDigits limit t acc := by
  rw [← scanDigits_lower, h, scanDigits_lower]

theorem pton4Loop_lower (s : Str) (done : List Byte) (cur : Nat) (b : Bool) (n : Nat) :
    Inet.pton4Loop (lower s) done cur b n = Inet.pton4Loop s done cur b n := by
  induction s generalizing done cur b n with
  | nil => rfl
  | cons c s ih =>
    show Inet.pton4Loop (c.toLower :: lower s) done cur b n = _
    rw [Inet.pton4Loop, Inet.pton4Loop, decVal_lower]
    cases Inet.decVal c with
    | none => simp only [ih, toLower_eq_iff (x := '.') (by decide)]
    | some d => simp only [ih]

theorem pton4_lower (s : Str) : Inet.pton4 (lower s) = Inet.pton4 s := by rw [Inet.pton4, Inet.pton4, pton4Loop_lower]

theorem pton6Loop_lower (s : Str) (out : List Byte) (colon : Option Nat) (tok : Str) (x v : Nat) :
    Inet.pton6Loop (lower s) out colon (lower tok) x v = Inet.pton6Loop s out colon tok x v := by
  induction s generalizing out colon tok x v with
  | nil => rfl
  | cons c s ih =>
    show Inet.pton6Loop (c.toLower :: lower s) out colon (lower tok) x v = _
    rw [Inet.pton6Loop, Inet.pton6Loop, hexVal_lower]
    have hs : lower s = [] ↔ s = [] := by simp [lower]
    cases Inet.hexVal c with
    | none => simp only [ih, toLower_eq_iff (x := '.') (by decide), toLower_eq_iff (x := ':') (by decide), pton4_lower, hs]
    | some d => simp only [ih]

theorem pton6_lower (s : Str) : Inet.pton6 (lower s) = Inet.pton6 s := by
  have e : Inet.pton6Start (lower s) = (Inet.pton6Start s).map lower := by
    cases s with
    | nil => rfl
    | cons c s =>
      show Inet.pton6Start (c.toLower :: lower s) = _
      rw [Inet.pton6Start, Inet.pton6Start]
      simp only [toLower_eq_iff (x := ':') (by decide)]
      have hh : (lower s).head? = some ':' ↔ s.head? = some ':' := by
        cases s <;> simp [lower, toLower_eq_iff (x := ':') (by decide)]
      simp only [hh]
      split
      · split <;> rfl
      · rfl
  rw [Inet.pton6, Inet.pton6, e]
  cases Inet.pton6Start s with
  | none => rfl
  | some t =>
    show Inet.finish (Inet.pton6Loop (lower t) [] none (lower t) 0 0) = _
    rw [pton6Loop_lower]

theorem same_pton4 {s t : Str} (h : SameLetters s t) : Inet.pton4 s = Inet.pton4 t := by rw [← pton4_lower, h, pton4_lower]

theorem same_pton6 {s t : Str} (h : SameLetters s t) : Inet.pton6 s = Inet.pton6 t := by rw [← pton6_lower, h, pton6_lower]

/-! ## Addresses and ranges, the names apart -/

/-- The address without the name by which it was found. -/
def unnamed (a : Addr) : Addr := { a with hostname := [] }

/-- The range without the names of its bounds. -/
def unnamedRange (r : Range) : Range := { r with lo := unnamed r.lo, hi := unnamed r.hi }

/-- The outcomes are the same, with values related by `R`. -/
def ResRel {α β : Type} (R : α → β → Prop) : Res α → Res β → Prop
  | .ok a, .ok b => R a b
  | .throw e, .throw e' => e = e'
  | .ub w, .ub w' => w = w'
  | _, _ => False

theorem resRel_bind {α β γ δ : Type} {R : α → β → Prop} {S : γ → δ → Prop} {r : Res α} {r' : Res β} {f : α → Res γ} {f' : β → Res δ}
    (h : ResRel R r r') (hf : ∀ a b, R a b → ResRel S (f a) (f' b)) : ResRel S (r >>= f) (r' >>= f') := by
  cases r <;> cases r' <;> first | exact hf _ _ h | exact h | exact h.elim

theorem resRel_mono {α β : Type} {R S : α → β → Prop} (h : ∀ a b, R a b → S a b) {r : Res α} {r' : Res β} (hr : ResRel R r r') :
    ResRel S r r' := by
  cases r <;> cases r' <;> first | exact h _ _ hr | exact hr | exact hr.elim

/-- Same addresses, the names apart. -/
def SameAddr (a b : Addr) : Prop := unnamed a = unnamed b

/-- Same ranges, the names apart. -/
def SameRange (a b : Range) : Prop := unnamedRange a = unnamedRange b

/-- Same lists of ranges, the names apart. -/
def SameRanges (l l' : List Range) : Prop := l.map unnamedRange = l'.map unnamedRange

theorem sameAddr_cases {a b : Addr} (h : SameAddr a b) : b = { a with hostname := b.hostname } := by
  obtain ⟨a1, a2, a3, a4, a5, a6, a7, a8, a9⟩ := a
  obtain ⟨b1, b2, b3, b4, b5, b6, b7, b8, b9⟩ := b
  injection h with h1 h2 h3 h4 h5 h6 h7 h8 h9
  subst h1 h2 h3 h4 h5 h6 h7 h8
  rfl

theorem sameRange_cases {a b : Range} (h : SameRange a b) :
    b = { a with lo := { a.lo with hostname := b.lo.hostname }, hi := { a.hi with hostname := b.hi.hostname } } := by
  obtain ⟨a1, a2, a3, a4⟩ := a
  obtain ⟨b1, b2, b3, b4⟩ := b
  injection h with h1 h2 h3 h4
  subst h1 h2
  show Range.mk a1 a2 b3 b4 = Range.mk a1 a2 _ _
  rw [← sameAddr_cases (a := a3) (b := b3) h3, ← sameAddr_cases (a := a4) (b := b4) h4]

theorem sameRanges_append {l l' m m' : List Range} (h : SameRanges l l') (h' : SameRanges m m') : SameRanges (l ++ m) (l' ++ m') := by
  unfold SameRanges
  rw [List.map_append, List.map_append, h, h']

theorem sameRanges_one {r r' : Range} (h : SameRange r r') : SameRanges [r] [r'] := congrArg (fun x => [x]) h

theorem sameRanges_cons {r r' : Range} {l l' : List Range} (h : SameRange r r') (hl : SameRanges l l') :
    SameRanges (r :: l) (r' :: l') := by
  show unnamedRange r :: _ = unnamedRange r' :: _
  rw [h, hl]

/-- Two lists of ranges which are the same, the names apart, are both empty or have the same first ones. -/
theorem sameRanges_cases {l l' : List Range} (h : SameRanges l l') :
    (l = [] ∧ l' = []) ∨ ∃ r r' m m', l = r :: m ∧ l' = r' :: m' ∧ SameRange r r' ∧ SameRanges m m' := by
  cases l with
  | nil =>
    cases l' with
    | nil => exact .inl ⟨rfl, rfl⟩
    | cons _ _ => cases h
  | cons r m =>
    cases l' with
    | nil => cases h
    | cons r' m' =>
      injection h with h1 h2
      exact .inr ⟨_, _, _, _, rfl, rfl, h1, h2⟩

theorem sameAddr_setProtocol {a b : Addr} (h : SameAddr a b) (n : Int) :
    ResRel SameAddr (onLocal (Addr.setProtocol n) a) (onLocal (Addr.setProtocol n) b) := by
  rw [sameAddr_cases h]
  unfold onLocal Addr.setProtocol
  dsimp only
  by_cases h1 : n = IPPROTO_IP ∨ n = IPPROTO_TCP ∨ n = IPPROTO_UDP
  · rw [if_pos h1, if_pos h1]
    by_cases h2 : n ≠ a.protocol
    · rw [if_pos h2, if_pos h2]
      exact rfl
    · rw [if_neg h2, if_neg h2]
      exact rfl
  · rw [if_neg h1, if_neg h1]
    exact rfl

theorem same_makeRange (a : Res Addr) (s t : Str) (protocol : Int) (d : Bool) :
    ResRel SameRange (makeRange a s protocol d) (makeRange a t protocol d) := by
  unfold makeRange
  refine resRel_bind (R := Eq) (by cases a <;> rfl) ?_
  rintro a _ rfl
  refine resRel_bind (R := SameAddr) (show SameAddr { a with hostname := s } { a with hostname := t } from rfl) fun a b h => ?_
  have hrest : ∀ a b : Addr, SameAddr a b → ResRel SameRange
      (onLocal (Addr.setPortDefined d) a >>= fun a => Pure.pure (Range.setFrom a Range.default))
      (onLocal (Addr.setPortDefined d) b >>= fun a => Pure.pure (Range.setFrom a Range.default)) := by
    intro a b h
    rw [sameAddr_cases h]
    exact rfl
  dsimp only
  by_cases hp : protocol ≠ -1
  · rw [if_pos hp, if_pos hp]
    exact resRel_bind (sameAddr_setProtocol h protocol) hrest
  · rw [if_neg hp, if_neg hp]
    exact resRel_bind (R := SameAddr) (r := .ok a) (r' := .ok b) h hrest

/-! ## Sorting and merging -/

theorem unnamed_compare (a b : Range) (m : Bool) : (unnamedRange a).compare (unnamedRange b) m = a.compare b m := by
  obtain ⟨a1, a2, a3, a4⟩ := a
  obtain ⟨b1, b2, b3, b4⟩ := b
  cases a1 <;> cases a2 <;> cases b1 <;> cases b2 <;> rfl

theorem unnamed_lt (a b : Range) : (unnamedRange a).lt (unnamedRange b) = a.lt b := by rw [Range.lt, Range.lt, unnamed_compare]

theorem unnamed_isEmpty (a : Range) : (unnamedRange a).isEmpty = a.isEmpty := rfl

theorem unnamed_family (f : Compare) (a b : Range) : familyFirst f (unnamedRange a) (unnamedRange b) = familyFirst f a b := by
  rw [familyFirst, familyFirst, unnamed_compare]

theorem unnamed_stableSort {lt : Range → Range → Res Bool} (h : ∀ a b, lt (unnamedRange a) (unnamedRange b) = lt a b) {l l' : List Range}
    (hl : SameRanges l l') : ResRel SameRanges (stableSort lt l) (stableSort lt l') := by
  have hw : ∀ l : List Range, isStrictWeakOrder lt (l.map unnamedRange) = isStrictWeakOrder lt l := by
    intro l
    simp only [isStrictWeakOrder, List.all_map, Function.comp_def, h]
  have hi : ∀ (a : Range) (l : List Range), orderedInsert lt (unnamedRange a) (l.map unnamedRange) = (orderedInsert lt a l).map unnamedRange := by
    intro a l
    induction l with
    | nil => rfl
    | cons b l ih =>
      rw [List.map_cons, orderedInsert, orderedInsert, h, ih]
      split <;> rfl
  have hf : ∀ l : List Range, (l.map unnamedRange).foldr (orderedInsert lt) [] = (l.foldr (orderedInsert lt) []).map unnamedRange := by
    intro l
    induction l with
    | nil => rfl
    | cons a l ih => rw [List.map_cons, List.foldr_cons, List.foldr_cons, ih, hi]
  unfold stableSort
  rw [← hw l, ← hw l', hl]
  split
  · show SameRanges _ _
    unfold SameRanges
    rw [← hf, ← hf, hl]
  · exact rfl

theorem same_maskCount {a b : Addr} (h : SameAddr a b) (n : Int) : ResRel SameAddr (Range.withMaskCount n a) (Range.withMaskCount n b) := by
  rw [sameAddr_cases h]
  unfold Range.withMaskCount Addr.setMaskCount
  dsimp only
  have e : Addr.isIpv4 { a with hostname := b.hostname } = a.isIpv4 := rfl
  rw [e]
  by_cases hc : n < (if a.isIpv4 = true then 96 else 0) ∨ n > 128
  · rw [if_pos hc, if_pos hc]
    exact rfl
  · rw [if_neg hc, if_neg hc]
    exact rfl

/-- What comparing and neighbourhood look at. -/
theorem same_order {a b c d : Addr} (h1 : SameAddr a b) (h2 : SameAddr c d) :
    Addr.le b d = Addr.le a c ∧ Addr.ge b d = Addr.ge a c ∧ Addr.lt b d = Addr.lt a c ∧ Addr.gt b d = Addr.gt a c
      ∧ Addr.ne b d = Addr.ne a c ∧ b.isPrevious d = a.isPrevious c ∧ b.isNext d = a.isNext c := by
  rw [sameAddr_cases h1, sameAddr_cases h2]
  exact ⟨rfl, rfl, rfl, rfl, rfl, rfl, rfl⟩

theorem same_bounds {a b : Range} (h : SameRange a b) : SameAddr a.lo b.lo ∧ SameAddr a.hi b.hi ∧ SameAddr a.fromOrTo b.fromOrTo
    ∧ SameAddr a.toOrFrom b.toOrFrom ∧ b.isDefined = a.isDefined ∧ b.isRange = a.isRange ∧ b.lo.getMaskSize = a.lo.getMaskSize
    ∧ b.hi.getMaskSize = a.hi.getMaskSize := by
  rw [sameRange_cases h]
  refine ⟨rfl, rfl, ?_, ?_, rfl, rfl, rfl, rfl⟩
  · unfold Range.fromOrTo
    dsimp only
    split <;> rfl
  · unfold Range.toOrFrom
    dsimp only
    split <;> rfl

theorem same_union {a b c d : Range} (h1 : SameRange a b) (h2 : SameRange c d) :
    ResRel SameRange (a.unionIfPossible c) (b.unionIfPossible d) := by
  obtain ⟨-, -, p3, p4, p5, p6, p7, p8⟩ := same_bounds h1
  obtain ⟨-, -, q3, q4, q5, q6, q7, q8⟩ := same_bounds h2
  unfold Range.unionIfPossible
  dsimp only
  rw [p5, q5, p6, q6, p7, q7, p8, q8, (same_order p3 q4).1, (same_order p4 q3).2.1, (same_order p3 q4).2.2.2.2.2.1,
    (same_order p4 q3).2.2.2.2.2.2, (same_order p3 q3).2.2.1, (same_order p4 q4).2.2.2.1]
  split
  · exact rfl
  · split
    · refine resRel_bind (R := SameAddr) (same_maskCount (by split <;> assumption) _) fun lo lo' hlo => ?_
      refine resRel_bind (R := SameAddr) (same_maskCount (by split <;> assumption) _) fun hi hi' hhi => ?_
      rw [(same_order hlo hhi).2.2.2.2.1]
      rw [sameAddr_cases hlo, sameAddr_cases hhi]
      split <;> exact rfl
    · exact rfl

theorem same_mergeLoop {l l' : List Range} (h : SameRanges l l') : ∀ {a b : Range}, SameRange a b →
    ResRel SameRanges (mergeLoop a l) (mergeLoop b l') := by
  induction l generalizing l' with
  | nil =>
    intro a b hab
    rcases sameRanges_cases h with ⟨-, rfl⟩ | ⟨_, _, _, _, e, _⟩
    · exact sameRanges_one hab
    · cases e
  | cons x l ih =>
    intro a b hab
    rcases sameRanges_cases h with ⟨e, -⟩ | ⟨r, r', m, m', e, rfl, h1, h2⟩
    · cases e
    cases e
    rw [mergeLoop, mergeLoop]
    refine resRel_bind (same_union hab h1) fun u v huv => ?_
    have e1 : u.isDefined = v.isDefined := by
      rw [sameRange_cases huv]
      rfl
    have e2 : u.isEmpty = v.isEmpty := by
      rw [sameRange_cases huv]
      rfl
    rw [e1, e2]
    split
    · exact ih h2 huv
    · exact resRel_bind (ih h2 h1) fun s t hst => sameRanges_cons hab hst

theorem same_sortResult (sort : BitVec 64) {l l' : List Range} (h : SameRanges l l') :
    ResRel SameRanges (sortResult sort l) (sortResult sort l') := by
  have hlast : ∀ l l' : List Range, SameRanges l l' → ResRel SameRanges
      (if sort &&& SORT_IPV4_FIRST ≠ 0 then stableSort (familyFirst .ipv4VsIpv6) l
        else if sort &&& SORT_IPV6_FIRST ≠ 0 then stableSort (familyFirst .ipv6VsIpv4) l else .ok l)
      (if sort &&& SORT_IPV4_FIRST ≠ 0 then stableSort (familyFirst .ipv4VsIpv6) l'
        else if sort &&& SORT_IPV6_FIRST ≠ 0 then stableSort (familyFirst .ipv6VsIpv4) l' else .ok l') := by
    intro l l' h
    repeat' split
    · exact unnamed_stableSort (unnamed_family _) h
    · exact unnamed_stableSort (unnamed_family _) h
    · exact h
  have hmerge : ∀ l l' : List Range, SameRanges l l' → ResRel SameRanges (mergeAll l) (mergeAll l') := by
    intro l l' h
    rcases sameRanges_cases h with ⟨rfl, rfl⟩ | ⟨r, r', m, m', rfl, rfl, h1, h2⟩
    · exact rfl
    · exact same_mergeLoop h2 h1
  unfold sortResult
  dsimp only
  by_cases h1 : sort &&& (SORT_FULL ||| SORT_MERGE) ≠ 0 <;> by_cases h2 : sort &&& SORT_MERGE ≠ 0
  · simp only [if_pos h1, if_pos h2]
    exact resRel_bind (unnamed_stableSort unnamed_lt h) fun l l' h => resRel_bind (hmerge l l' h) hlast
  · simp only [if_pos h1, if_neg h2]
    exact resRel_bind (unnamed_stableSort unnamed_lt h) hlast
  · simp only [if_neg h1, if_pos h2]
    exact resRel_bind (R := SameRanges) (r := .ok l) (r' := .ok l') h fun l l' h => resRel_bind (hmerge l l' h) hlast
  · simp only [if_neg h1, if_neg h2]
    exact hlast l l' h

/-! ## The parser -/

/-- The two computations, on parsers with the same configuration and the same count of errors, have related outcomes and emit the same
number of errors. -/
def Alike {α β : Type} (c : Config) (R : α → β → Prop) (m : PM α) (m' : PM β) : Prop :=
  ∀ p p' : Parser, p.config = c → p'.config = c → p.errorCount = p'.errorCount →
    (m p).1.config = c ∧ (m' p').1.config = c ∧ (m p).1.errorCount = (m' p').1.errorCount ∧ ResRel R (m p).2 (m' p').2

section
variable {c : Config}

theorem alike_pure {α β : Type} {R : α → β → Prop} {a : α} {b : β} (h : R a b) : Alike c R (Pure.pure a : PM α) (Pure.pure b : PM β) :=
  fun _ _ h1 h2 h3 => ⟨h1, h2, h3, h⟩

theorem alike_lift {α β : Type} {R : α → β → Prop} {r : Res α} {r' : Res β} (h : ResRel R r r') : Alike c R (PM.lift r) (PM.lift r') :=
  fun _ _ h1 h2 h3 => ⟨h1, h2, h3, h⟩

theorem alike_throw {α β : Type} {R : α → β → Prop} (e : Exc) : Alike c R (PM.throw e : PM α) (PM.throw e : PM β) :=
  fun _ _ h1 h2 h3 => ⟨h1, h2, h3, rfl⟩

theorem alike_bind {α β γ δ : Type} {R : α → β → Prop} {S : γ → δ → Prop} {m : PM α} {m' : PM β} {f : α → PM γ} {f' : β → PM δ}
    (h : Alike c R m m') (hf : ∀ a b, R a b → Alike c S (f a) (f' b)) : Alike c S (m >>= f) (m' >>= f') := by
  intro p p' h1 h2 h3
  obtain ⟨g1, g2, g3, g4⟩ := h p p' h1 h2 h3
  rw [PM.bind_def, PM.bind_def]
  rcases hm : m p with ⟨q, r⟩
  rcases hm' : m' p' with ⟨q', r'⟩
  rw [hm, hm'] at g3 g4
  rw [hm] at g1
  rw [hm'] at g2
  cases r <;> cases r' <;> first | exact hf _ _ g4 q q' g1 g2 g3 | exact ⟨g1, g2, g3, g4⟩ | exact g4.elim

theorem alike_emit {α β : Type} {R : α → β → Prop} (m m' : Str) {f : Unit → PM α} {f' : Unit → PM β} (h : Alike c R (f ()) (f' ())) :
    Alike c R (emitError m >>= f) (emitError m' >>= f') := by
  refine alike_bind (R := fun _ _ => True) (fun p p' h1 h2 h3 => ⟨h1, h2, ?_, trivial⟩) fun _ _ _ => h
  show p.errorCount + 1 = p'.errorCount + 1
  rw [h3]

theorem alike_config {α β : Type} {R : α → β → Prop} {f : Config → PM α} {f' : Config → PM β} (h : Alike c R (f c) (f' c)) :
    Alike c R (PM.config >>= f) (PM.config >>= f') := by
  intro p p' h1 h2 h3
  rw [PM.config_bind, PM.config_bind, h1, h2]
  exact h p p' h1 h2 h3

theorem alike_getAllow {α β : Type} {R : α → β → Prop} {x : Allow} {f : Bool → PM α} {f' : Bool → PM β}
    (h : ∀ b, Alike c R (f b) (f' b)) : Alike c R (getAllow x >>= f) (getAllow x >>= f') := by
  refine alike_bind (R := Eq) (fun p p' h1 h2 h3 => ⟨h1, h2, h3, ?_⟩) ?_
  · show p.config.flags x = p'.config.flags x
    rw [h1, h2]
  · rintro b _ rfl
    exact h b

theorem alike_errorCount {α β : Type} {R : α → β → Prop} {f : Int → PM α} {f' : Int → PM β}
    (h : ∀ n, Alike c R (f n) (f' n)) : Alike c R (errorCountNow >>= f) (errorCountNow >>= f') := by
  refine alike_bind (R := Eq) (fun p p' h1 h2 h3 => ⟨h1, h2, h3, h3⟩) ?_
  rintro b _ rfl
  exact h b

theorem same_isIpv4 {a b : Addr} (h : SameAddr a b) : b.isIpv4 = a.isIpv4 := by
  rw [sameAddr_cases h]
  rfl

theorem alike_addrinfoLoop (s t : Str) (d : Bool) (l : List AddrInfo) (first : Bool) {res res' : List Range} (h : SameRanges res res') :
    Alike c SameRanges (addrinfoLoop s d l first res) (addrinfoLoop t d l first res') := by
  induction l generalizing first res res' with
  | nil => exact alike_pure h
  | cons x l ih =>
    cases x with
    | inet len protocol sa =>
      rw [addrinfoLoop, addrinfoLoop]
      split
      · exact alike_emit _ _ (ih _ h)
      · exact alike_bind (alike_lift (same_makeRange _ _ _ _ _)) fun a b hab => ih _ (sameRanges_append h (sameRanges_one hab))
    | inet6 len protocol sa =>
      rw [addrinfoLoop, addrinfoLoop]
      split
      · exact alike_emit _ _ (ih _ h)
      · exact alike_bind (alike_lift (same_makeRange _ _ _ _ _)) fun a b hab => ih _ (sameRanges_append h (sameRanges_one hab))
    | other family =>
      rw [addrinfoLoop, addrinfoLoop]
      dsimp only
      split
      · exact alike_emit _ _ (ih _ h)
      · exact ih _ h

variable {env : ParseEnv} (hb : CaseBlind env)
include hb

theorem alike_lookupAddress {s t q q' : Str} (hs : SameLetters s t) (hq : SameLetters q q') (d : Bool) {res res' : List Range}
    (h : SameRanges res res') : Alike c SameRanges (lookupAddress env s q d res) (lookupAddress env t q' d res') := by
  unfold lookupAddress
  refine alike_config ?_
  have hq' : SameLetters (if q = [] then ['0'] else cstr q) (if q' = [] then ['0'] else cstr q') := by
    by_cases h0 : q = []
    · rw [if_pos h0, if_pos ((same_nil hq).1 h0)]
      exact sameLetters_refl _
    · rw [if_neg h0, if_neg (fun e => h0 ((same_nil hq).2 e))]
      exact same_cstr hq
  rw [hb.names _ _ _ _ false _ (same_cstr hs) hq']
  cases env.getaddrinfo (cstr t) (if q' = [] then ['0'] else cstr q') false (hintProtocol c.protocol) with
  | error r e => exact alike_emit _ _ (alike_pure h)
  | list l => exact alike_addrinfoLoop _ _ _ _ _ h

omit hb in
theorem alike_numericAddress {s t : Str} (hs : SameLetters s t) (port : Int) (d : Bool) {res res' : List Range}
    (h : SameRanges res res') : Alike c SameRanges (numericAddress s port d res) (numericAddress t port d res') := by
  unfold numericAddress
  refine alike_config ?_
  dsimp only
  rw [same_pton4 (same_cstr hs), same_pton6 (same_cstr hs)]
  cases Inet.pton4 (cstr t) with
  | some b => exact alike_bind (alike_lift (same_makeRange _ _ _ _ _)) fun a b hab => alike_pure (sameRanges_append h (sameRanges_one hab))
  | none =>
    cases Inet.pton6 (cstr t) with
    | some b => exact alike_bind (alike_lift (same_makeRange _ _ _ _ _)) fun a b hab => alike_pure (sameRanges_append h (sameRanges_one hab))
    | none => exact alike_emit _ _ (alike_pure h)

theorem alike_noLookupAddress {s t q q' : Str} (hs : SameLetters s t) (hq : SameLetters q q') (d : Bool) {res res' : List Range}
    (h : SameRanges res res') : Alike c SameRanges (noLookupAddress env s q d res) (noLookupAddress env t q' d res') := by
  unfold noLookupAddress
  refine alike_getAllow fun b1 => alike_getAllow fun b2 => ?_
  rw [hb.numbers q q' hq]
  have e : decide (q ≠ []) = decide (q' ≠ []) := by simp only [ne_eq, same_nil hq]
  rw [e]
  split
  · cases env.convert q' with
    | none => exact alike_emit _ _ (alike_pure h)
    | some n =>
      dsimp only
      split
      · exact alike_emit _ _ (alike_pure h)
      · split
        · exact alike_emit _ _ (alike_pure h)
        · exact alike_numericAddress hs n d h
  · exact alike_numericAddress hs 0 d h

theorem alike_parseAddressPort {s t q q' : Str} (hs : SameLetters s t) (hq : SameLetters q q') (v6 : Bool) {res res' : List Range}
    (h : SameRanges res res') : Alike c SameRanges (parseAddressPort env s q res v6) (parseAddressPort env t q' res' v6) := by
  unfold parseAddressPort
  refine alike_config ?_
  dsimp only
  have e : decide (q ≠ []) = decide (q' ≠ []) := by simp only [ne_eq, same_nil hq]
  have e' : decide (s = []) = decide (t = []) := by simp only [same_nil hs]
  rw [e, e']
  split
  · exact alike_emit _ _ (alike_pure h)
  · split
    · exact alike_emit _ _ (alike_pure h)
    · have h1 : SameLetters (if (!decide (q' ≠ []) && decide (c.defaultPort ≠ -1)) = true then intStr c.defaultPort else q)
          (if (!decide (q' ≠ []) && decide (c.defaultPort ≠ -1)) = true then intStr c.defaultPort else q') := by
        split
        · exact sameLetters_refl _
        · exact hq
      have h2 : ∀ u : Str, SameLetters (if s = [] then u else s) (if t = [] then u else t) := by
        intro u
        by_cases h0 : s = []
        · rw [if_pos h0, if_pos ((same_nil hs).1 h0)]
          exact sameLetters_refl _
        · rw [if_neg h0, if_neg (fun e => h0 ((same_nil hs).2 e))]
          exact hs
      split
      · exact alike_lookupAddress hb (h2 _) h1 _ h
      · exact alike_noLookupAddress hb (h2 _) h1 _ h

omit hb in
theorem same_dropDuplicates {a b : Addr} (hab : SameAddr a b) {l l' : List Range} (h : SameRanges l l') :
    ResRel SameRanges (dropDuplicates a l) (dropDuplicates b l') := by
  induction l generalizing l' with
  | nil =>
    rcases sameRanges_cases h with ⟨-, rfl⟩ | ⟨_, _, _, _, e, _⟩
    · exact rfl
    · cases e
  | cons x l ih =>
    rcases sameRanges_cases h with ⟨e, -⟩ | ⟨r, r', m, m', e, rfl, h1, h2⟩
    · cases e
    cases e
    rw [dropDuplicates, dropDuplicates]
    have e : b.protocol = a.protocol := by
      rw [sameAddr_cases hab]
    rw [e]
    refine resRel_bind (sameAddr_setProtocol (same_bounds h1).1 a.protocol) fun u v huv => ?_
    rw [(same_order hab huv).2.2.2.2.1]
    split
    · exact sameRanges_cons h1 h2
    · exact ih h2

theorem alike_ignoreDuplicates {s t q q' : Str} (hs : SameLetters s t) (hq : SameLetters q q') (v6 : Bool) {res res' : List Range}
    (h : SameRanges res res') : Alike c SameRanges (ignoreDuplicates env s q res v6) (ignoreDuplicates env t q' res' v6) := by
  unfold ignoreDuplicates
  refine alike_bind (alike_parseAddressPort hb hs hq v6 h) fun l l' hl => ?_
  rcases sameRanges_cases hl with ⟨rfl, rfl⟩ | ⟨r, r', m, m', rfl, rfl, h1, h2⟩
  · exact alike_pure rfl
  · exact alike_bind (alike_lift (same_dropDuplicates (same_bounds h1).1 h2)) fun l l' hl => alike_pure (sameRanges_cons h1 hl)

/-- Both have no range, or the same one, the names apart. -/
def SameOption : Option Range → Option Range → Prop
  | none, none => True
  | some r, some r' => SameRange r r'
  | _, _ => False

theorem alike_parseBound (w : Str) {s t q q' : Str} (hs : SameLetters s t) (hq : SameLetters q q') (v6 : Bool) :
    Alike c SameOption (parseBound env w s q v6) (parseBound env w t q' v6) := by
  unfold parseBound
  refine alike_bind (alike_ignoreDuplicates hb hs hq v6 (rfl : SameRanges [] [])) fun l l' hl => ?_
  rcases sameRanges_cases hl with ⟨rfl, rfl⟩ | ⟨r, r', m, m', rfl, rfl, h1, h2⟩
  · exact alike_pure trivial
  · rcases sameRanges_cases h2 with ⟨rfl, rfl⟩ | ⟨u, u', n, n', rfl, rfl, -, -⟩
    · exact alike_pure h1
    · exact alike_emit _ _ (alike_pure trivial)

theorem alike_parseAddressRangePort {s t q q' : Str} (hs : SameLetters s t) (hq : SameLetters q q') (v6 : Bool) {res res' : List Range}
    (h : SameRanges res res') : Alike c SameRanges (parseAddressRangePort env s q res v6) (parseAddressRangePort env t q' res' v6) := by
  unfold parseAddressRangePort
  refine alike_config ?_
  by_cases hr : c.flags .addressRange = true
  · rw [if_pos hr, if_pos hr]
    rcases same_split hs (x := '-') (by decide) with ⟨e1, e2⟩ | ⟨a, b, a', b', e1, e2, ha, hb'⟩
    · rw [e1, e2]
      exact alike_parseAddressPort hb hs hq v6 h
    · rw [e1, e2]
      cases a with
      | nil =>
        obtain rfl := (same_nil ha).1 rfl
        cases b with
        | nil =>
          obtain rfl := (same_nil hb').1 rfl
          exact alike_emit _ _ (alike_pure h)
        | cons x b =>
          cases b' with
          | nil => exact absurd ((same_nil hb').2 rfl) (by simp)
          | cons x' b' =>
            refine alike_bind (alike_parseBound hb _ hb' hq v6) fun r r' hrr => ?_
            cases r <;> cases r' <;> first | exact hrr.elim | exact alike_pure h | skip
            refine alike_pure (sameRanges_append h (sameRanges_one ?_))
            rw [sameRange_cases hrr]
            exact rfl
      | cons x a =>
        cases a' with
        | nil => exact absurd ((same_nil ha).2 rfl) (by simp)
        | cons x' a' =>
          cases b with
          | nil =>
            obtain rfl := (same_nil hb').1 rfl
            refine alike_bind (alike_parseBound hb _ ha hq v6) fun r r' hrr => ?_
            cases r <;> cases r' <;> first | exact hrr.elim | exact alike_pure h | skip
            exact alike_pure (sameRanges_append h (sameRanges_one hrr))
          | cons y b =>
            cases b' with
            | nil => exact absurd ((same_nil hb').2 rfl) (by simp)
            | cons y' b' =>
              refine alike_bind (alike_parseBound hb _ ha hq v6) fun r r' hrr => ?_
              cases r <;> cases r' <;> first | exact hrr.elim | exact alike_pure h | skip
              refine alike_bind (alike_parseBound hb _ hb' hq v6) fun u u' huu => ?_
              cases u <;> cases u' <;> first | exact huu.elim | exact alike_pure h | skip
              rename_i r r' u u'
              dsimp only
              have e3 : SameRange (r.setTo u.swapFromTo.hi) (r'.setTo u'.swapFromTo.hi) := by
                rw [sameRange_cases hrr, sameRange_cases huu]
                exact rfl
              have e4 : (r'.setTo u'.swapFromTo.hi).isEmpty = (r.setTo u.swapFromTo.hi).isEmpty := by
                rw [← unnamed_isEmpty, ← e3, unnamed_isEmpty]
              rw [e4]
              split
              · exact alike_pure (sameRanges_append h (sameRanges_one e3))
              · exact alike_pure h
  · rw [if_neg hr, if_neg hr]
    exact alike_parseAddressPort hb hs hq v6 h

theorem alike_parseAddress4 {s t : Str} (hs : SameLetters s t) {res res' : List Range} (h : SameRanges res res') :
    Alike c SameRanges (parseAddress4 env s res) (parseAddress4 env t res') := by
  unfold parseAddress4
  refine alike_config ?_
  rcases same_split hs (x := ':') (by decide) with ⟨e1, e2⟩ | ⟨a, b, a', b', e1, e2, ha, hb'⟩
  · rw [e1, e2]
    exact alike_parseAddressRangePort hb hs (sameLetters_refl _) false h
  · rw [e1, e2]
    dsimp only
    split
    · exact alike_parseAddressRangePort hb ha hb' false h
    · exact alike_emit _ _ (alike_pure h)

theorem alike_parseAddress6 {s t : Str} (hs : SameLetters s t) (n : Nat) {res res' : List Range} (h : SameRanges res res') :
    Alike c SameRanges (parseAddress6 env s n res) (parseAddress6 env t n res') := by
  unfold parseAddress6
  refine alike_config ?_
  by_cases h1 : s.head? = some '['
  · rw [if_pos h1, if_pos ((same_head hs (by decide)).1 h1)]
    rcases same_split (same_drop hs 1) (x := ']') (by decide) with ⟨e1, e2⟩ | ⟨a, b, a', b', e1, e2, ha, hb'⟩
    · rw [e1, e2]
      exact alike_emit _ _ (alike_pure h)
    · rw [e1, e2]
      cases b with
      | nil =>
        obtain rfl := (same_nil hb').1 rfl
        exact alike_parseAddressRangePort hb ha (sameLetters_refl _) true h
      | cons x b =>
        cases b' with
        | nil => exact absurd ((same_nil hb').2 rfl) (by simp)
        | cons x' b' =>
          dsimp only
          have hx : x = ':' ↔ x' = ':' := by simpa using same_head hb' (x := ':') (by decide)
          simp only [ne_eq, hx]
          split
          · exact alike_emit _ _ (alike_pure h)
          split
          · exact alike_emit _ _ (alike_pure h)
          · exact alike_parseAddressRangePort hb ha (same_drop hb' 1) true h
  · rw [if_neg h1, if_neg (fun e => h1 ((same_head hs (by decide)).2 e))]
    split
    · rcases same_split hs (x := ':') (by decide) with ⟨e1, e2⟩ | ⟨a, b, a', b', e1, e2, ha, hb'⟩
      · rw [e1, e2]
        exact alike_throw _
      · rw [e1, e2]
        exact alike_parseAddressRangePort hb ha hb' true h
    · exact alike_parseAddressRangePort hb hs (sameLetters_refl _) true h

theorem alike_parseAddress {s t m m' : Str} (hs : SameLetters s t) (hm : SameLetters m m') {res res' : List Range}
    (h : SameRanges res res') :
    Alike c (fun x y => x.1 = y.1 ∧ SameRanges x.2 y.2) (parseAddress env s m res) (parseAddress env t m' res') := by
  have h4 : Alike c (fun (x y : Bool × List Range) => x.1 = y.1 ∧ SameRanges x.2 y.2)
      (do return (true, ← parseAddress4 env s res)) (do return (true, ← parseAddress4 env t res')) :=
    alike_bind (alike_parseAddress4 hb hs h) fun a b hab => alike_pure ⟨rfl, hab⟩
  have h6 : Alike c (fun (x y : Bool × List Range) => x.1 = y.1 ∧ SameRanges x.2 y.2)
      (do return (false, ← parseAddress6 env s (t.count ':') res)) (do return (false, ← parseAddress6 env t (t.count ':') res')) :=
    alike_bind (alike_parseAddress6 hb hs _ h) fun a b hab => alike_pure ⟨rfl, hab⟩
  unfold parseAddress
  refine alike_config ?_
  dsimp only
  rw [same_count hs (x := ':') (by decide), same_scanDigits (same_cstr hm)]
  simp only [same_nil hs, same_head hs (x := ':') (by decide), same_head hs (x := '[') (by decide), same_mem hs (x := ']') (by decide),
    same_head hm (x := '[') (by decide), ne_eq, same_nil hm]
  split
  · exact h6
  split
  · split
    · split
      · exact h6
      · cases scanDigits 1000 (cstr m') 0 with
        | number n =>
          dsimp only
          split
          · exact h6
          · exact h4
        | tooLarge => exact h4
        | notNumber => exact h4
    · split
      · exact h6
      · exact h4
  split
  · exact h6
  split
  · rcases same_split hs (x := ':') (by decide) with ⟨e1, e2⟩ | ⟨a, b, a', b', e1, e2, ha, hb'⟩
    · rw [e1, e2]
      exact h4
    · rw [e1, e2]
      dsimp only
      simp only [same_mem ha (x := '.') (by decide)]
      split
      · exact h4
      · exact h6
  · exact h4

theorem alike_addressMask {m m' : Str} (hm : SameLetters m m') {a b : Addr} (hab : SameAddr a b) (v4 : Bool) :
    Alike c Eq (addressMask env m a v4) (addressMask env m' b v4) := by
  unfold addressMask
  refine alike_config ?_
  dsimp only
  have hcut : SameLetters (if v4 = true then m else (m.drop 1).dropLast) (if v4 = true then m' else (m'.drop 1).dropLast) := by
    split
    · exact hm
    · exact same_dropLast (same_drop hm 1)
  have e1 : b.getPort = a.getPort := by
    rw [sameAddr_cases hab]
    rfl
  have e2 : b.protocol = a.protocol := by rw [sameAddr_cases hab]
  simp only [e1, e2, same_head hm (x := '[') (by decide), same_getLast hm (x := ']') (by decide), ne_eq, same_nil hcut,
    hb.names _ _ (Inet.decStr a.getPort) _ true (hintProtocol a.protocol) (same_cstr hcut) (sameLetters_refl _)]
  generalize (if v4 = true then m' else (m'.drop 1).dropLast) = cut
  split
  · exact alike_emit _ _ (alike_pure rfl)
  split
  · exact alike_emit _ _ (alike_pure rfl)
  split
  · exact alike_emit _ _ (alike_pure rfl)
  split
  · exact alike_emit _ _ (alike_pure rfl)
  split
  · exact alike_pure rfl
  generalize env.getaddrinfo (cstr cut) (Inet.decStr a.getPort) true (hintProtocol a.protocol) = g
  rcases g with ⟨r, e⟩ | _ | ⟨x | x | x, l⟩
  · exact alike_emit _ _ (alike_pure rfl)
  · exact alike_lift rfl
  · dsimp only
    repeat' split
    all_goals first | exact alike_emit _ _ (alike_pure rfl) | exact alike_pure rfl
  · dsimp only
    repeat' split
    all_goals first | exact alike_emit _ _ (alike_pure rfl) | exact alike_pure rfl
  · exact alike_emit _ _ (alike_pure rfl)

theorem alike_parseMask {m m' : Str} (hm : SameLetters m m') {a b : Addr} (hab : SameAddr a b) (v4 : Bool) :
    Alike c SameAddr (parseMask env m a v4) (parseMask env m' b v4) := by
  have hset : ∀ bits, ResRel SameAddr (onLocal (Addr.setMask bits) a) (onLocal (Addr.setMask bits) b) := by
    intro bits
    rw [sameAddr_cases hab]
    exact rfl
  unfold parseMask
  simp only [same_nil hm, same_scanDigits (same_cstr hm)]
  split
  · exact alike_pure hab
  cases scanDigits 10000 (cstr m') 0 with
  | tooLarge => exact alike_emit _ _ (alike_pure hab)
  | number n =>
    dsimp only
    split
    · exact alike_emit _ _ (alike_pure hab)
    split
    · exact alike_emit _ _ (alike_pure hab)
    · refine alike_bind (R := Eq) (alike_lift ?_) ?_
      · cases clearLow 16 (if v4 = true then 32 - n else 128 - n) (Vector.replicate 16 255) <;> rfl
      · rintro x _ rfl
        exact alike_lift (hset x)
  | notNumber =>
    refine alike_bind (alike_addressMask hb hm hab v4) ?_
    rintro x _ rfl
    cases x with
    | none => exact alike_pure hab
    | some x => exact alike_lift (hset x)

theorem alike_maskLoop {m m' : Str} (hm : SameLetters m m') (v4 : Bool) {l l' : List Range} (h : SameRanges l l') :
    Alike c SameRanges (maskLoop env m v4 l) (maskLoop env m' v4 l') := by
  induction l generalizing l' with
  | nil =>
    rcases sameRanges_cases h with ⟨-, rfl⟩ | ⟨_, _, _, _, e, _⟩
    · exact alike_pure rfl
    · cases e
  | cons x l ih =>
    rcases sameRanges_cases h with ⟨e, -⟩ | ⟨r, r', n, n', e, rfl, h1, h2⟩
    · cases e
    cases e
    rw [maskLoop, maskLoop]
    refine alike_config ?_
    have hc : SameLetters (chooseMask c m v4) (chooseMask c m' v4) := by
      unfold chooseMask
      by_cases h0 : m' = []
      · simp only [same_nil hm, h0, ne_eq, not_true_eq_false, if_false]
        exact sameLetters_refl _
      · simp only [same_nil hm, h0, ne_eq, not_false_eq_true, if_true]
        exact hm
    rw [same_isIpv4 (same_bounds h1).1]
    refine alike_bind (alike_parseMask hb hc (same_bounds h1).1 _) fun a b hab => ?_
    refine alike_bind (ih h2) fun u v huv => alike_pure (sameRanges_cons ?_ huv)
    rw [sameRange_cases h1, sameAddr_cases hab]
    exact rfl

theorem alike_parseCidr {s t : Str} (hs : SameLetters s t) {res res' : List Range} (h : SameRanges res res') :
    Alike c SameRanges (parseCidr env s res) (parseCidr env t res') := by
  unfold parseCidr
  refine alike_config ?_
  dsimp only
  split
  · have hcut : SameLetters ((splitFirst '/' (trimString s)).getD (trimString s, [])).1 ((splitFirst '/' (trimString t)).getD (trimString t, [])).1
        ∧ SameLetters ((splitFirst '/' (trimString s)).getD (trimString s, [])).2 ((splitFirst '/' (trimString t)).getD (trimString t, [])).2 := by
      rcases same_split (same_trim hs) (x := '/') (by decide) with ⟨e1, e2⟩ | ⟨a, b, a', b', e1, e2, ha, hb'⟩
      · rw [e1, e2]
        exact ⟨same_trim hs, sameLetters_refl _⟩
      · rw [e1, e2]
        exact ⟨ha, hb'⟩
    refine alike_errorCount fun n => ?_
    refine alike_bind (alike_parseAddress hb hcut.1 hcut.2 (rfl : SameRanges [] [])) ?_
    rintro ⟨x1, x2⟩ ⟨y1, y2⟩ ⟨rfl, hxy⟩
    refine alike_bind (alike_maskLoop hb hcut.2 _ hxy) fun u v huv => alike_errorCount fun k => ?_
    split
    · exact alike_pure (sameRanges_append h huv)
    · exact alike_pure h
  · exact alike_bind (alike_parseAddress hb (same_trim hs) (sameLetters_refl _) h) fun x y hxy => alike_pure hxy.2

omit hb in
theorem notIn_lower {seps : Str} (h : ∀ x ∈ seps, NoLetter x) (x : Char) : (!seps.contains x.toLower) = !seps.contains x := by
  congr 1
  rw [Bool.eq_iff_iff, List.contains_iff_mem, List.contains_iff_mem]
  constructor
  · intro hx
    have e : x = x.toLower := (toLower_eq_iff (h _ hx)).1 rfl
    rw [e]
    exact hx
  · intro hx
    rw [(toLower_eq_iff (h _ hx)).2 rfl]
    exact hx

omit hb in
theorem separators_noLetter (c : Config) : ∀ x ∈ separators c, NoLetter x := by
  intro x hx
  have : x = ',' ∨ x = ' ' ∨ x = '\n' := by
    unfold separators at hx
    simp only [List.mem_append] at hx
    rcases hx with (hx | hx) | hx <;> split at hx <;> simp_all
  rcases this with rfl | rfl | rfl <;> decide

omit hb in
theorem comments_noLetter (c : Config) : ∀ x ∈ commentChars c, NoLetter x := by
  intro x hx
  have : x = '#' ∨ x = ';' := by
    unfold commentChars at hx
    simp only [List.mem_append] at hx
    rcases hx with hx | hx <;> split at hx <;> simp_all
  rcases this with rfl | rfl <;> decide

omit hb in
theorem same_trimEnd {s t : Str} (hs : SameLetters s t) (n : Nat) : trimEnd s n = trimEnd t n := by
  have hd : ∀ (s : Str) (n : Nat), isSpace (s.getD n ' ') = isSpace ((lower s).getD n ' ') := by
    intro s n
    unfold lower
    rw [List.getD_eq_getElem?_getD, List.getD_eq_getElem?_getD, List.getElem?_map]
    cases s[n]? with
    | none => rfl
    | some x => exact (isSpace_lower x).symm
  induction n with
  | zero => rfl
  | succ n ih => rw [trimEnd, trimEnd, ih, hd s, hs, ← hd t]

theorem alike_parseSingle {s t : Str} (hs : SameLetters s t) {res res' : List Range} (h : SameRanges res res') :
    Alike c SameRanges (parseSingle env s res) (parseSingle env t res') := by
  unfold parseSingle
  refine alike_config ?_
  dsimp only
  have e1 : singleStart s = singleStart t := same_length (same_takeWhile isSpace_lower hs)
  have e2 : singleEnd c s = singleEnd c t := by
    unfold singleEnd
    dsimp only
    rw [e1, same_length hs, same_length (same_takeWhile (notIn_lower (comments_noLetter c)) (same_drop hs _)), same_trimEnd hs]
  rw [e1, e2, same_length hs]
  split
  · refine alike_bind (R := SameLetters) (alike_lift ?_) fun a b hab => alike_parseCidr hb hab h
    unfold substr
    rw [same_length hs]
    split
    · exact rfl
    · exact same_take (same_drop hs _) _
  · exact alike_parseCidr hb hs h

theorem alike_parseList (n : Nat) {s t : Str} (hs : SameLetters s t) {res res' : List Range} (h : SameRanges res res') :
    Alike c SameRanges (parseList env n s res) (parseList env n t res') := by
  induction n generalizing s t res res' with
  | zero => exact alike_pure h
  | succ n ih =>
    rw [parseList, parseList]
    refine alike_config ?_
    dsimp only
    have hsep := notIn_lower (separators_noLetter c)
    have h1 := same_takeWhile (p := fun x => !(separators c).contains x) hsep hs
    have h2 := same_dropWhile (p := fun x => !(separators c).contains x) hsep hs
    simp only [ne_eq, same_nil hs, same_nil h1]
    split
    · exact alike_pure h
    split
    · refine alike_bind (R := SameRanges) ?_ fun a b hab => ih (same_drop ?_ 1) hab
      · have h3 : SameLetters (entryText c (s.takeWhile fun x => !(separators c).contains x))
            (entryText c (t.takeWhile fun x => !(separators c).contains x)) := by
          unfold entryText
          split
          · exact same_takeWhile (notIn_lower (comments_noLetter c)) h1
          · exact h1
        unfold parseEntry
        simp only [ne_eq, same_nil h3]
        split
        · exact alike_parseCidr hb h3 h
        · exact alike_pure h
      · unfold skipLine
        simp only [ne_eq, same_nil h2, same_head h2 (x := '\n') (by decide)]
        split
        · refine same_dropWhile (fun x => ?_) h2
          simp only [ne_eq, toLower_eq_iff (x := '\n') (by decide)]
        · exact h2
    · exact ih (same_drop h2 1) h

theorem alike_parse {s t : Str} (hs : SameLetters s t) : Alike c SameRanges (parse env s) (parse env t) := by
  unfold parse
  refine alike_config ?_
  refine alike_bind (R := SameRanges) ?_ fun a b hab => alike_lift (same_sortResult _ hab)
  unfold parseUnsorted
  refine alike_config ?_
  split
  · exact alike_parseSingle hb hs rfl
  · rw [same_length hs]
    exact alike_parseList hb _ hs rfl

end

end Verif.Parser
