import Verif.Lemmas.Unix

/-!
# Lemmas on the comparison of Unix addresses and on their URI
-/

namespace Verif
open Spec

theorem memcmp_neg (x y : List Nat) : UnixAddr.memcmp y x = - UnixAddr.memcmp x y := by
  induction x generalizing y with
  | nil => cases y <;> rfl
  | cons a x ih =>
    cases y with
    | nil => rfl
    | cons b y =>
      simp only [UnixAddr.memcmp]
      by_cases h : a = b
      · rw [if_pos h, if_pos h.symm, ih]
      · rw [if_neg h, if_neg (Ne.symm h)]
        by_cases h2 : a < b
        · rw [if_pos h2, if_neg (by omega)]; rfl
        · rw [if_neg h2, if_pos (by omega)]

theorem memcmp_self (x : List Nat) : UnixAddr.memcmp x x = 0 := by
  induction x with
  | nil => rfl
  | cons a x ih => simp [UnixAddr.memcmp, ih]

theorem memcmp_pad {n m : List Nat} {k j : Nat} (hn : ∀ c ∈ n, c ≠ 0) (hm : ∀ c ∈ m, c ≠ 0)
    (h : n.length + k = m.length + j) :
    (UnixAddr.memcmp (n ++ List.replicate k 0) (m ++ List.replicate j 0) = 0 ↔ n = m) ∧
      (UnixAddr.memcmp (n ++ List.replicate k 0) (m ++ List.replicate j 0) < 0 ↔ n < m) := by
  induction n generalizing m with
  | nil =>
    cases m with
    | nil =>
      simp only [List.length_nil, Nat.zero_add] at h
      subst h
      rw [memcmp_self]
      simp
    | cons b m =>
      simp only [List.length_nil, List.length_cons] at h
      obtain ⟨k', rfl⟩ : ∃ k', k = k' + 1 := ⟨m.length + j, by omega⟩
      have hb := hm b (by simp)
      simp only [List.nil_append, List.replicate_succ, List.cons_append, UnixAddr.memcmp]
      rw [if_neg (Ne.symm hb), if_pos (by omega)]
      simp
  | cons a n ih =>
    have ha := hn a (by simp)
    cases m with
    | nil =>
      simp only [List.length_nil, List.length_cons] at h
      obtain ⟨j', rfl⟩ : ∃ j', j = j' + 1 := ⟨n.length + k, by omega⟩
      simp only [List.nil_append, List.replicate_succ, List.cons_append, UnixAddr.memcmp]
      rw [if_neg ha, if_neg (by omega)]
      simp
    | cons b m =>
      simp only [List.length_cons] at h
      have hi := ih (m := m) (fun c hc => hn c (List.mem_cons_of_mem _ hc)) (fun c hc => hm c (List.mem_cons_of_mem _ hc))
        (by omega)
      simp only [List.cons_append, UnixAddr.memcmp]
      by_cases hab : a = b
      · subst hab
        rw [if_pos rfl, List.cons_lt_cons_iff]
        simpa using hi
      · rw [if_neg hab, List.cons_lt_cons_iff]
        by_cases hlt : a < b
        · rw [if_pos hlt]; simp [hab, hlt]
        · rw [if_neg hlt]; simp [hab, hlt]

theorem map_toNat_inj {n m : Str} (h : n.map Char.toNat = m.map Char.toNat) : n = m := by
  induction n generalizing m with
  | nil => cases m with
    | nil => rfl
    | cons => simp at h
  | cons a n ih => cases m with
    | nil => simp at h
    | cons b m =>
      simp only [List.map_cons, List.cons.injEq] at h
      rw [ih h.2]
      have : a = b := by
        apply Char.ext
        apply UInt32.toNat.inj
        exact h.1
      rw [this]

theorem toNat_ne {n : Str} (h : ∀ c ∈ n, c ≠ '\x00') : ∀ c ∈ n.map Char.toNat, c ≠ 0 := by
  intro c hc h0
  obtain ⟨d, hd, rfl⟩ := List.mem_map.1 hc
  apply h d hd
  apply Char.ext
  apply UInt32.toNat.inj
  exact h0

theorem cmp_image {a b : UnixAddr} {x y : UnixName} (ha : a.Shows x) (hb : b.Shows y) :
    UnixAddr.cmp a b = UnixAddr.memcmp (x.image.map Char.toNat) (y.image.map Char.toNat) := by
  unfold UnixAddr.cmp UnixAddr.bytesOf
  rw [show a.address.family = AF_UNIX from ha.family, show b.address.family = AF_UNIX from hb.family,
    show a.address.path.toList = x.image from ha.path, show b.address.path.toList = y.image from hb.path]
  simp [UnixAddr.memcmp]

theorem image_file_map (n : Str) :
    (UnixName.file n).image.map Char.toNat = n.map Char.toNat ++ List.replicate (108 - n.length) 0 := by
  simp [UnixName.image]

theorem image_abstract_map (n : Str) :
    (UnixName.abstract n).image.map Char.toNat = 0 :: (n.map Char.toNat ++ List.replicate (107 - n.length) 0) := by
  simp [UnixName.image]

theorem cmp_spec {env : UnixEnv} (hu : Utf8Ascii env.utf8) {a b : UnixAddr} {x y : UnixName} (hx : x.Legal env.utf8)
    (hy : y.Legal env.utf8) (ha : a.Shows x) (hb : b.Shows y) :
    (UnixAddr.cmp a b = 0 ↔ x = y) ∧ (UnixAddr.cmp a b < 0 ↔ x.Before y) := by
  rw [cmp_image ha hb]
  clear ha hb
  have hd : ∀ {m : Nat} {n : Str}, LegalName env.utf8 m n → ∃ c t, n.map Char.toNat = c :: t ∧ c ≠ 0 := by
    intro m n h
    obtain ⟨c, t, rfl, hc⟩ := legal_cons hu h
    exact ⟨c.toNat, t.map Char.toNat, rfl, toNat_ne (n := [c]) (by simpa using hc) _ (by simp)⟩
  have un : UnixName.unnamed.image.map Char.toNat = 0 :: 0 :: List.replicate 106 0 := by decide
  have inj : ∀ {n m : Str}, (n.map Char.toNat = m.map Char.toNat) ↔ n = m := ⟨map_toNat_inj, fun h => by rw [h]⟩
  cases x with
  | unnamed =>
    rw [un]
    cases y with
    | unnamed => rw [un, memcmp_self]; simp [UnixName.Before, UnixName.text]
    | file n =>
      obtain ⟨c, t, h, hc⟩ := hd hy
      rw [image_file_map, h]
      simp only [List.cons_append, UnixAddr.memcmp]
      rw [if_neg (Ne.symm hc), if_pos (by omega)]
      simp [UnixName.Before, UnixName.rank]
    | abstract n =>
      obtain ⟨c, t, h, hc⟩ := hd hy
      rw [image_abstract_map, h]
      simp only [List.cons_append, UnixAddr.memcmp]
      rw [if_pos trivial, if_neg (Ne.symm hc), if_pos (by omega)]
      simp [UnixName.Before, UnixName.rank]
  | file n =>
    cases y with
    | unnamed =>
      obtain ⟨c, t, h, hc⟩ := hd hx
      rw [image_file_map, h, un]
      simp only [List.cons_append, UnixAddr.memcmp]
      rw [if_neg hc, if_neg (by omega)]
      simp [UnixName.Before, UnixName.rank]
    | file m =>
      have h1 : n.length ≤ 107 := hx.2.1
      have h2 : m.length ≤ 107 := hy.2.1
      rw [image_file_map, image_file_map]
      have := memcmp_pad (k := 108 - n.length) (j := 108 - m.length) (toNat_ne (legal_noNul hu hx))
        (toNat_ne (legal_noNul hu hy)) (by simp; omega)
      rw [this.1, this.2, inj]
      simp [UnixName.Before, UnixName.rank, UnixName.text]
    | abstract m =>
      obtain ⟨c, t, h, hc⟩ := hd hx
      rw [image_file_map, image_abstract_map, h]
      simp only [List.cons_append, UnixAddr.memcmp]
      rw [if_neg hc, if_neg (by omega)]
      simp [UnixName.Before, UnixName.rank]
  | abstract n =>
    cases y with
    | unnamed =>
      obtain ⟨c, t, h, hc⟩ := hd hx
      rw [image_abstract_map, h, un]
      simp only [List.cons_append, UnixAddr.memcmp]
      rw [if_pos trivial, if_neg hc, if_neg (by omega)]
      simp [UnixName.Before, UnixName.rank]
    | file m =>
      obtain ⟨c, t, h, hc⟩ := hd hy
      rw [image_file_map, image_abstract_map, h]
      simp only [List.cons_append, UnixAddr.memcmp]
      rw [if_neg (Ne.symm hc), if_pos (by omega)]
      simp [UnixName.Before, UnixName.rank]
    | abstract m =>
      have h1 : n.length ≤ 106 := hx.2.1
      have h2 : m.length ≤ 106 := hy.2.1
      rw [image_abstract_map, image_abstract_map]
      simp only [UnixAddr.memcmp]
      rw [if_pos trivial]
      have := memcmp_pad (k := 107 - n.length) (j := 107 - m.length) (toNat_ne (legal_noNul hu hx))
        (toNat_ne (legal_noNul hu hy)) (by simp; omega)
      rw [this.1, this.2, inj]
      simp [UnixName.Before, UnixName.rank, UnixName.text]

theorem shows_unique {env : UnixEnv} (hu : Utf8Ascii env.utf8) {a : UnixAddr} {x y : UnixName} (hx : x.Legal env.utf8)
    (hy : y.Legal env.utf8) (ha : a.Shows x) (hb : a.Shows y) : x = y :=
  (cmp_spec hu hx hy ha hb).1.1 (memcmp_self _)

/-! ## The URI -/

theorem badSchemeChar_true {c : Char} : UnixAddr.badSchemeChar c true = false ↔ c.isAlpha = true := by
  simp only [UnixAddr.badSchemeChar, Char.isAlpha, Char.isUpper, Char.isLower, Char.toNat, Bool.true_or, Bool.and_true,
    Bool.and_eq_false_iff, Bool.or_eq_false_iff, decide_eq_false_iff_not, Bool.or_eq_true, Bool.and_eq_true,
    decide_eq_true_eq, ge_iff_le, UInt32.le_iff_toNat_le, Nat.not_lt, gt_iff_lt]
  exact ⟨fun h => h.symm, fun h => h.symm⟩

theorem badSchemeChar_false {c : Char} :
    UnixAddr.badSchemeChar c false = false ↔ c.isAlphanum = true ∨ c = '+' ∨ c = '-' ∨ c = '.' := by
  have h0 : UnixAddr.badSchemeChar c false =
      (UnixAddr.badSchemeChar c true && (!c.isDigit && (c ≠ '+' && (c ≠ '-' && c ≠ '.')))) := by
    have hd : (decide (c.toNat < '0'.toNat) || decide (c.toNat > '9'.toNat)) = !c.isDigit := by
      rw [Bool.eq_iff_iff]
      simp only [Char.isDigit, Char.toNat, Bool.or_eq_true, decide_eq_true_eq, Bool.not_eq_true', Bool.and_eq_false_iff,
        decide_eq_false_iff_not, ge_iff_le, UInt32.le_iff_toNat_le, Nat.not_le, gt_iff_lt]
    unfold UnixAddr.badSchemeChar
    rw [hd]
    simp [Bool.and_assoc]
  rw [h0]
  unfold Char.isAlphanum
  rw [Bool.and_eq_false_iff, badSchemeChar_true]
  cases hA : c.isAlpha <;> cases hD : c.isDigit <;> simp [Decidable.or_iff_not_imp_left]

theorem badScheme_tail {s : Str} :
    UnixAddr.badScheme s false = false ↔ ∀ d ∈ s, d.isAlphanum = true ∨ d = '+' ∨ d = '-' ∨ d = '.' := by
  induction s with
  | nil => simp [UnixAddr.badScheme]
  | cons c s ih =>
    rw [UnixAddr.badScheme, Bool.or_eq_false_iff, ih, badSchemeChar_false]
    simp

theorem schemeOk_iff {s : Str} : (s ≠ [] ∧ UnixAddr.badScheme s true = false) ↔ SchemeOk s := by
  cases s with
  | nil => simp [SchemeOk]
  | cons c s =>
    rw [UnixAddr.badScheme, Bool.or_eq_false_iff, badSchemeChar_true, badScheme_tail]
    constructor
    · rintro ⟨-, h1, h2⟩
      exact ⟨c, s, rfl, h1, h2⟩
    · rintro ⟨c', s', h, h1, h2⟩
      cases h
      exact ⟨by simp, h1, h2⟩

theorem schemeOk_colon {s : Str} (h : SchemeOk s) : ':' ∉ s := by
  obtain ⟨c, t, rfl, hc, ht⟩ := h
  intro hm
  rcases List.mem_cons.1 hm with h | h
  · subst h; revert hc; decide
  · have := ht _ h
    revert this
    decide

/-- What follows the scheme in a URI. -/
def uriBody : UnixName → Str
  | .unnamed => []
  | .file n => (if n.head? = some '/' then "//".toList else []) ++ n
  | .abstract n => (if n.head? = some '/' then "//".toList else []) ++ n ++ "?abstract".toList

theorem toUri_shows {a : UnixAddr} {n : UnixName} (h : a.Shows n) : a.toUri = .ok (a.getScheme ++ ':' :: uriBody n) := by
  unfold UnixAddr.toUri
  dsimp only
  cases n with
  | unnamed =>
    rw [h.isUnnamed.2 rfl]
    simp [uriBody]
  | file n =>
    have h1 : a.isUnnamed = false := by
      rw [← Bool.not_eq_true, h.isUnnamed]; simp
    have h2 : a.isFile = true := h.isFile.2 rfl
    have h3 : readCString a.address.path 0 = .ok n := by
      have := h.unlink
      unfold UnixAddr.unlinkName at this
      rw [if_pos h2] at this
      cases hr : readCString a.address.path 0 with
      | ok s =>
        rw [hr] at this
        simp only [Res.bind_ok, UnixName.text, if_pos, Res.ok.injEq, Option.some.injEq] at this
        rw [this]
      | throw e => rw [hr] at this; cases this
      | ub w => rw [hr] at this; cases this
    rw [h1, h2]
    simp [h3, uriBody]
  | abstract n =>
    have h1 : a.isUnnamed = false := by
      rw [← Bool.not_eq_true, h.isUnnamed]; simp
    have h2 : a.isFile = false := by
      rw [← Bool.not_eq_true, h.isFile]; simp
    have h4 : a.isAbstract = true := h.isAbstract.2 rfl
    have h3 : readCString a.address.path 1 = .ok n := by
      have := h.text
      unfold UnixAddr.toStr at this
      rw [h4] at this
      exact this
    rw [h1, h2]
    simp [h3, uriBody]

theorem squeeze_uri {n : Str} (h : Canonical n) :
    squeeze ((if n.head? = some '/' then "//".toList else []) ++ n) = n := by
  by_cases hh : n.head? = some '/'
  · rw [if_pos hh]
    cases n with
    | nil => simp at hh
    | cons c t =>
      simp only [List.head?_cons, Option.some.injEq] at hh
      subst hh
      show squeeze ('/' :: '/' :: '/' :: t) = _
      rw [squeeze_slash_slash, squeeze_slash_slash, squeeze_of_canonical h]
  · rw [if_neg hh, List.nil_append, squeeze_of_canonical h]

/-- The name which a URI gives is stored. -/
theorem setUri_body {env : UnixEnv} (hu : Utf8Ascii env.utf8) (b : UnixAddr) {scheme : Str} {n : UnixName}
    (hs : SchemeOk scheme) (hl : n.Legal env.utf8) (hq : '?' ∉ n.text) :
    ∃ v, Vector.toList v = n.image ∧
      UnixAddr.setUri env (scheme ++ ':' :: uriBody n) b =
        ({ b.withPath v with scheme := keptScheme scheme }, .ok ()) := by
  obtain ⟨hne, hbad⟩ := schemeOk_iff.2 hs
  unfold UnixAddr.setUri
  rw [Parser.splitFirst_append (schemeOk_colon hs)]
  dsimp only
  rw [if_neg hne, if_neg (by simp [hbad])]
  have fin : ∀ (m : SM UnixAddr Unit) v, m b = (b.withPath v, .ok ()) →
      SM.bind m (fun _ => UnixAddr.setScheme scheme) b = ({ b.withPath v with scheme := keptScheme scheme }, .ok ()) := by
    intro m v h
    unfold SM.bind
    rw [h]
    rfl
  have hqs : ∀ {n : Str}, '?' ∉ n → '?' ∉ (if n.head? = some '/' then "//".toList else []) ++ n := by
    intro n hn hm
    rcases List.mem_append.1 hm with h | h
    · revert h; split <;> decide
    · exact hn h
  cases n with
  | unnamed =>
    obtain ⟨v, hv, h⟩ := makeUnnamed_run b
    exact ⟨v, hv, fin _ v h⟩
  | file n =>
    rcases setFile_run env b ((if n.head? = some '/' then "//".toList else []) ++ n) with ⟨-, v, hv, h⟩ | ⟨hn, -⟩
    · rw [squeeze_uri hl.1] at hv
      refine ⟨v, hv, ?_⟩
      have : Parser.splitFirst '?' (uriBody (.file n)) = none := Parser.splitFirst_none.2 (hqs hq)
      rw [this]
      apply fin
      show (if ([] : Str) = [] then if uriBody (.file n) = [] then _ else UnixAddr.setFile env (uriBody (.file n)) else _) b = _
      rw [if_pos rfl, if_neg]
      · exact h
      · intro h0
        exact hl.1.1 (List.append_eq_nil_iff.1 h0).2
    · rw [squeeze_uri hl.1] at hn
      exact absurd hl hn
  | abstract n =>
    rcases setAbstract_run env hu b ((if n.head? = some '/' then "//".toList else []) ++ n) with ⟨-, v, hv, h⟩ | ⟨hn, -⟩
    · rw [squeeze_uri hl.1] at hv
      refine ⟨v, hv, ?_⟩
      have : Parser.splitFirst '?' (uriBody (.abstract n)) =
          some ((if n.head? = some '/' then "//".toList else []) ++ n, "abstract".toList) :=
        Parser.splitFirst_append (hqs hq)
      rw [this]
      apply fin
      exact h
    · rw [squeeze_uri hl.1] at hn
      exact absurd hl hn

end Verif
