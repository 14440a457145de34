import Verif.SpecUnix
import Verif.Lemmas.ParserText

/-!
# Lemmas on the Unix addresses
-/

namespace Verif
open Spec

/-! ## The canonical path -/

theorem squeeze_cons_ne {c : Char} {s : Str} (h : c ≠ '/') : squeeze (c :: s) = c :: squeeze s := by
  rw [squeeze, if_neg (fun hc => h hc.1)]

theorem squeeze_slash_slash {s : Str} : squeeze ('/' :: '/' :: s) = squeeze ('/' :: s) := by
  rw [squeeze, if_pos ⟨rfl, Or.inr rfl⟩]

theorem squeeze_slash_ne {c : Char} {s : Str} (h : c ≠ '/') : squeeze ('/' :: c :: s) = '/' :: c :: squeeze s := by
  rw [squeeze, if_neg (by simp [h]), squeeze_cons_ne h]

theorem squeeze_slash (s : Str) :
    squeeze ('/' :: s) = if squeeze (s.dropWhile (· == '/')) = [] then [] else '/' :: squeeze (s.dropWhile (· == '/')) := by
  induction s with
  | nil => rfl
  | cons c s ih =>
    by_cases h : c = '/'
    · subst h
      rw [squeeze_slash_slash, ih]
      rfl
    · rw [squeeze_slash_ne h, List.dropWhile_cons_of_neg (by simpa using h), squeeze_cons_ne h, if_neg (by simp)]

theorem tokens_ne (s : Str) : ∀ cur, ∀ t ∈ UnixAddr.tokens s cur, t ≠ [] := by
  induction s with
  | nil =>
    intro cur t ht
    rw [UnixAddr.tokens] at ht
    split at ht
    · simp at ht
    · simp only [List.mem_singleton] at ht
      subst ht
      assumption
  | cons c s ih =>
    intro cur t ht
    rw [UnixAddr.tokens] at ht
    split at ht
    · split at ht
      · exact ih _ t ht
      · rcases List.mem_cons.1 ht with ht | ht
        · subst ht; assumption
        · exact ih _ t ht
    · exact ih _ t ht

theorem join_nil {l : List Str} (h : ∀ t ∈ l, t ≠ []) : ['/'].intercalate l = [] ↔ l = [] := by
  cases l with
  | nil => simp [List.intercalate]
  | cons t l =>
    have ht := h t (by simp)
    cases l with
    | nil => simpa [List.intercalate] using ht
    | cons u l => simp [List.intercalate, List.intersperse, ht]

theorem join_cons (t : Str) (l : List Str) :
    ['/'].intercalate (t :: l) = if l = [] then t else t ++ '/' :: ['/'].intercalate l := by
  cases l with
  | nil => simp [List.intercalate]
  | cons u l => simp [List.intercalate, List.intersperse]

theorem join_tokens (s : Str) :
    (∀ cur, cur ≠ [] → ['/'].intercalate (UnixAddr.tokens s cur) = cur ++ squeeze s) ∧
      ['/'].intercalate (UnixAddr.tokens s []) = squeeze (s.dropWhile (· == '/')) := by
  induction s with
  | nil =>
    refine ⟨fun cur h => ?_, ?_⟩
    · simp [UnixAddr.tokens, h, squeeze, List.intercalate]
    · simp [UnixAddr.tokens, squeeze, List.intercalate]
  | cons c s ih =>
    by_cases hc : c = '/'
    · subst hc
      refine ⟨fun cur h => ?_, ?_⟩
      · rw [UnixAddr.tokens, if_pos rfl, if_neg h, join_cons, squeeze_slash, ih.2]
        have := join_nil (tokens_ne s [])
        rw [ih.2] at this
        by_cases hn : UnixAddr.tokens s [] = []
        · rw [if_pos hn, if_pos (this.2 hn), List.append_nil]
        · rw [if_neg hn, if_neg (fun h => hn (this.1 h))]
      · rw [UnixAddr.tokens, if_pos rfl, if_pos rfl, ih.2]
        rfl
    · refine ⟨fun cur h => ?_, ?_⟩
      · rw [UnixAddr.tokens, if_neg hc, ih.1 _ (by simp), squeeze_cons_ne hc]
        simp
      · rw [UnixAddr.tokens, if_neg hc, ih.1 _ (by simp), List.dropWhile_cons_of_neg (by simpa using hc),
          squeeze_cons_ne hc]
        simp

/-- The path which `verify_path()` builds. -/
theorem verify_join {path : Str} (h : path ≠ []) :
    (if path.head? = some '/' then '/' :: ['/'].intercalate (UnixAddr.tokens path [])
      else ['/'].intercalate (UnixAddr.tokens path [])) = if squeeze path = [] then ['/'] else squeeze path := by
  cases path with
  | nil => exact absurd rfl h
  | cons c s =>
    rw [(join_tokens _).2]
    by_cases hc : c = '/'
    · subst hc
      rw [if_pos (by rfl), squeeze_slash, List.dropWhile_cons_of_pos (by simp)]
      by_cases hs : squeeze (s.dropWhile (· == '/')) = []
      · rw [if_pos hs, if_pos rfl, hs]
      · rw [if_neg hs, if_neg (by simp)]
    · rw [if_neg (by simpa using hc), List.dropWhile_cons_of_neg (by simpa using hc), squeeze_cons_ne hc, if_neg (by simp)]

theorem squeeze_head {s : Str} (h : s.head? ≠ some '/') : (squeeze s).head? = s.head? := by
  cases s with
  | nil => rfl
  | cons c s => rw [squeeze_cons_ne (by simpa using h)]; rfl

theorem squeeze_last (s : Str) : (squeeze s).getLast? ≠ some '/' := by
  induction s with
  | nil => simp [squeeze]
  | cons c s ih =>
    rw [squeeze]
    split
    · exact ih
    · rename_i h
      cases hs : squeeze s with
      | nil =>
        intro hc
        simp only [List.getLast?_singleton, Option.some.injEq] at hc
        subst hc
        apply h
        refine ⟨rfl, ?_⟩
        cases s with
        | nil => exact Or.inl rfl
        | cons d s =>
          refine Or.inr ?_
          by_cases hd : d = '/'
          · rw [hd]; rfl
          · rw [squeeze_cons_ne hd] at hs; simp at hs
      | cons d t =>
        rw [hs] at ih
        rwa [List.getLast?_cons_cons]

theorem squeeze_noDouble (s : Str) : ¬ ['/', '/'] <:+: squeeze s := by
  induction s with
  | nil => simp [squeeze]
  | cons c s ih =>
    rw [squeeze]
    split
    · exact ih
    · rename_i h
      rw [List.infix_cons_iff]
      rintro (hp | hp)
      · rw [List.cons_prefix_cons] at hp
        obtain ⟨hc, hp⟩ := hp
        subst hc
        have hs : s.head? ≠ some '/' := fun hs => h ⟨rfl, Or.inr hs⟩
        have := squeeze_head hs
        cases hq : squeeze s with
        | nil => rw [hq] at hp; simp at hp
        | cons d t =>
          rw [hq, List.cons_prefix_cons] at hp
          rw [hq, ← hp.1] at this
          exact hs this.symm
      · exact ih hp

theorem squeeze_canonical {s : Str} (h : squeeze s ≠ []) : Canonical (squeeze s) :=
  ⟨h, squeeze_noDouble s, squeeze_last s⟩

theorem squeeze_self {s : Str} (h2 : ¬ ['/', '/'] <:+: s) (h3 : s.getLast? ≠ some '/') : squeeze s = s := by
  induction s with
  | nil => rfl
  | cons c s ih =>
    have hd : ¬ (c = '/' ∧ (s = [] ∨ s.head? = some '/')) := by
      rintro ⟨rfl, hs | hs⟩
      · subst hs; exact h3 rfl
      · cases s with
        | nil => simp at hs
        | cons d s =>
          simp only [List.head?_cons, Option.some.injEq] at hs
          subst hs
          exact h2 ⟨[], s, rfl⟩
    rw [squeeze, if_neg hd, ih (fun hi => h2 (List.infix_cons hi))]
    intro hl
    cases s with
    | nil => simp at hl
    | cons d s => exact h3 (by rwa [List.getLast?_cons_cons])

theorem squeeze_of_canonical {s : Str} (h : Canonical s) : squeeze s = s := squeeze_self h.2.1 h.2.2

theorem squeeze_sub {s : Str} {c : Char} (h : c ∈ squeeze s) : c ∈ s := by
  induction s with
  | nil => simp [squeeze] at h
  | cons d s ih =>
    rw [squeeze] at h
    split at h
    · exact List.mem_cons_of_mem _ (ih h)
    · rcases List.mem_cons.1 h with h | h
      · rw [h]; exact List.mem_cons_self
      · exact List.mem_cons_of_mem _ (ih h)

theorem isControl_iff {c : Nat} : UnixAddr.isControl c = true ↔ IsControl c := by
  simp only [UnixAddr.isControl, IsControl, Bool.or_eq_true, Bool.and_eq_true, decide_eq_true_eq]
  omega

/-- The tests of `verify_path()` on the path it built. -/
def checkPath (env : UnixEnv) (maxLength : Nat) (p : Str) : Res Str :=
  if p.length ≥ maxLength then .throw .invalidArgument
  else
    match env.utf8 p with
    | none => .throw .utf8Decoding
    | some u32 =>
      if u32.any UnixAddr.isControl then .throw .invalidArgument
      else if p = ['/'] then .throw .invalidArgument
      else .ok p

theorem verifyPath_eq (env : UnixEnv) {path : Str} (abstract : Bool) (h : path ≠ []) :
    UnixAddr.verifyPath env path abstract =
      checkPath env (if abstract then 108 - 1 else 108) (if squeeze path = [] then ['/'] else squeeze path) := by
  rw [← verify_join h]
  unfold UnixAddr.verifyPath
  rw [if_neg h]
  rfl

theorem checkPath_ok {env : UnixEnv} {m : Nat} {p q : Str} :
    checkPath env m p = .ok q ↔
      q = p ∧ p.length < m ∧ p ≠ ['/'] ∧ ∃ l, env.utf8 p = some l ∧ ∀ c ∈ l, ¬ IsControl c := by
  unfold checkPath
  by_cases h1 : p.length ≥ m
  · rw [if_pos h1]
    refine ⟨fun h => (nomatch h), fun h => ?_⟩
    omega
  · rw [if_neg h1]
    cases hl : env.utf8 p with
    | none => simp
    | some l =>
      dsimp only
      by_cases hc : l.any UnixAddr.isControl = true
      · rw [if_pos hc]
        refine ⟨fun h => (nomatch h), ?_⟩
        rintro ⟨-, -, -, m, hm, h⟩
        cases hm
        obtain ⟨c, hm, h'⟩ := List.any_eq_true.1 hc
        exact absurd (isControl_iff.1 h') (h c hm)
      · rw [if_neg hc]
        by_cases hr : p = ['/']
        · rw [if_pos hr]
          exact ⟨fun h => (nomatch h), fun h => absurd hr h.2.2.1⟩
        · rw [if_neg hr]
          constructor
          · intro h
            cases h
            exact ⟨rfl, by omega, hr, l, rfl, fun c hm hcc => hc (List.any_eq_true.2 ⟨c, hm, isControl_iff.2 hcc⟩)⟩
          · rintro ⟨rfl, -⟩
            rfl

/-- What `verify_path()` accepts. -/
theorem verify_ok {env : UnixEnv} {path q : Str} {abstract : Bool} :
    UnixAddr.verifyPath env path abstract = .ok q ↔
      q = squeeze path ∧ LegalName env.utf8 (if abstract then 106 else 107) q := by
  by_cases hp : path = []
  · subst hp
    constructor
    · intro h; simp [UnixAddr.verifyPath] at h
    · rintro ⟨rfl, h⟩
      exact absurd rfl h.1.1
  · rw [verifyPath_eq env abstract hp, checkPath_ok]
    by_cases hq : squeeze path = []
    · rw [if_pos hq]
      constructor
      · intro h
        exact absurd rfl h.2.2.1
      · rintro ⟨rfl, h⟩
        exact absurd hq h.1.1
    · rw [if_neg hq]
      have hcan := squeeze_canonical hq
      have hroot : squeeze path ≠ ['/'] := fun h => hcan.2.2 (by rw [h]; rfl)
      constructor
      · rintro ⟨rfl, hlen, -, h⟩
        refine ⟨rfl, hcan, ?_, h⟩
        revert hlen; cases abstract <;> simp <;> omega
      · rintro ⟨rfl, -, hlen, h⟩
        refine ⟨rfl, ?_, hroot, h⟩
        revert hlen; cases abstract <;> simp <;> omega

theorem verify_no_ub {env : UnixEnv} {path : Str} {abstract : Bool} {w : UB} :
    UnixAddr.verifyPath env path abstract ≠ .ub w := by
  by_cases hp : path = []
  · subst hp
    intro h; simp [UnixAddr.verifyPath] at h
  · rw [verifyPath_eq env abstract hp]
    generalize (if abstract then 108 - 1 else 108) = m
    generalize (if squeeze path = [] then ['/'] else squeeze path) = p
    unfold checkPath
    repeat' split
    all_goals intro h; cases h

/-- A legal name has no NUL. -/
theorem legal_noNul {utf8 : Str → Option (List Nat)} {m : Nat} {n : Str} (hu : Utf8Ascii utf8)
    (h : LegalName utf8 m n) : ∀ c ∈ n, c ≠ '\x00' := by
  rintro c hc rfl
  obtain ⟨-, -, l, hl, hn⟩ := h
  exact hn _ (hu n l hl _ hc (by decide)) (by unfold IsControl; decide)

theorem cstr_pad {n : Str} (h : ∀ c ∈ n, c ≠ '\x00') (k : Nat) : cstr (n ++ List.replicate k '\x00') = n := by
  unfold cstr
  rw [List.takeWhile_append_of_pos (by simpa using h)]
  cases k <;> simp [List.replicate_succ]

theorem cstr_noNul {n : Str} (h : ∀ c ∈ n, c ≠ '\x00') : cstr n = n := by
  have := cstr_pad h 0
  simpa using this

/-! ## Writing in the buffer -/

theorem blit_ok {v : Vector Char 108} {pos : Nat} {s : Str} (h : pos + s.length ≤ 108) :
    ∃ w, blit v pos s = .ok w ∧ w.toList = v.toList.take pos ++ s ++ v.toList.drop (pos + s.length) := by
  unfold blit
  rw [dif_pos h]
  exact ⟨_, rfl, by simp [Vector.toList]⟩

/-- Write another path. -/
def UnixAddr.withPath (a : UnixAddr) (v : Vector Char 108) : UnixAddr :=
  { a with address := { a.address with path := v } }

theorem write_ok {a : UnixAddr} {pos : Nat} {s : Str} (h : pos + s.length ≤ 108) :
    ∃ w, UnixAddr.write pos s a = (a.withPath w, .ok ()) ∧
      w.toList = a.address.path.toList.take pos ++ s ++ a.address.path.toList.drop (pos + s.length) := by
  obtain ⟨w, hw, hl⟩ := blit_ok (v := a.address.path) h
  refine ⟨w, ?_, hl⟩
  unfold UnixAddr.write
  rw [hw]
  rfl

theorem image_length {n : UnixName} {utf8 : Str → Option (List Nat)} (h : n.Legal utf8) : n.image.length = 108 := by
  cases n with
  | unnamed => rfl
  | file n =>
    have := h.2.1
    simp only [UnixName.image, List.length_append, List.length_replicate]
    omega
  | abstract n =>
    have := h.2.1
    simp only [UnixName.image, List.length_append, List.length_replicate, List.length_cons]
    omega

theorem makeUnnamed_run (a : UnixAddr) :
    ∃ v, v.toList = UnixName.unnamed.image ∧ UnixAddr.makeUnnamed a = (a.withPath v, .ok ()) := by
  obtain ⟨w, hw, hl⟩ := write_ok (a := a) (pos := 0) (s := List.replicate 108 '\x00') (by simp)
  refine ⟨w, ?_, hw⟩
  rw [hl]
  simp [UnixName.image]

theorem setFile_run (env : UnixEnv) (a : UnixAddr) (path : Str) :
    (LegalName env.utf8 107 (squeeze path) ∧
      ∃ v, v.toList = (UnixName.file (squeeze path)).image ∧ UnixAddr.setFile env path a = (a.withPath v, .ok ())) ∨
    (¬ LegalName env.utf8 107 (squeeze path) ∧ ∃ e, UnixAddr.setFile env path a = (a, .throw e)) := by
  unfold UnixAddr.setFile
  cases hv : UnixAddr.verifyPath env path false with
  | ub w => exact absurd hv verify_no_ub
  | throw e =>
    refine Or.inr ⟨fun h => ?_, e, rfl⟩
    rw [verify_ok.2 ⟨rfl, h⟩] at hv
    cases hv
  | ok q =>
    obtain ⟨rfl, hl⟩ := verify_ok.1 hv
    refine Or.inl ⟨hl, ?_⟩
    have hlen : (squeeze path).length ≤ 107 := hl.2.1
    obtain ⟨w, hw, hwl⟩ := write_ok (a := a) (pos := 0) (s := squeeze path) (by omega)
    obtain ⟨x, hx, hxl⟩ := write_ok (a := a.withPath w) (pos := (squeeze path).length)
      (s := List.replicate (108 - (squeeze path).length) '\x00') (by simp; omega)
    refine ⟨x, ?_, ?_⟩
    · rw [hxl]
      show w.toList.take _ ++ _ ++ w.toList.drop _ = _
      rw [hwl]
      simp [UnixName.image]
      omega
    · show SM.bind _ _ a = _
      unfold SM.bind
      rw [hw]
      dsimp only
      rw [if_pos (by omega), hx]
      rfl

theorem setAbstract_run (env : UnixEnv) (hu : Utf8Ascii env.utf8) (a : UnixAddr) (path : Str) :
    (LegalName env.utf8 106 (squeeze path) ∧
      ∃ v, v.toList = (UnixName.abstract (squeeze path)).image ∧
        UnixAddr.setAbstract env path a = (a.withPath v, .ok ())) ∨
    (¬ LegalName env.utf8 106 (squeeze path) ∧ ∃ e, UnixAddr.setAbstract env path a = (a, .throw e)) := by
  unfold UnixAddr.setAbstract
  cases hv : UnixAddr.verifyPath env path true with
  | ub w => exact absurd hv verify_no_ub
  | throw e =>
    refine Or.inr ⟨fun h => ?_, e, rfl⟩
    rw [verify_ok.2 ⟨rfl, h⟩] at hv
    cases hv
  | ok q =>
    obtain ⟨rfl, hl⟩ := verify_ok.1 hv
    refine Or.inl ⟨hl, ?_⟩
    have hlen : (squeeze path).length ≤ 106 := hl.2.1
    have hcs : cstr (squeeze path) = squeeze path := cstr_noNul (legal_noNul hu hl)
    have hsn : UnixAddr.strncpy (squeeze path) (108 - 1) =
        squeeze path ++ List.replicate (107 - (squeeze path).length) '\x00' := by
      unfold UnixAddr.strncpy
      rw [hcs, List.take_of_length_le (by omega)]
    obtain ⟨w, hw, hwl⟩ := write_ok (a := a) (pos := 0) (s := ['\x00']) (by decide)
    obtain ⟨x, hx, hxl⟩ := write_ok (a := a.withPath w) (pos := 1)
      (s := UnixAddr.strncpy (squeeze path) (108 - 1)) (by rw [hsn]; simp; omega)
    have hximg : x.toList = (UnixName.abstract (squeeze path)).image := by
      rw [hxl]
      show w.toList.take _ ++ _ ++ w.toList.drop _ = _
      rw [hwl, hsn]
      simp [UnixName.image]
      omega
    by_cases hs : (squeeze path).length < 106
    · obtain ⟨y, hy, hyl⟩ := write_ok (a := (a.withPath w).withPath x) (pos := (squeeze path).length + 2)
        (s := List.replicate (108 - (squeeze path).length - 2) '\x00') (by simp; omega)
      refine ⟨y, ?_, ?_⟩
      · rw [hyl]
        show x.toList.take _ ++ _ ++ x.toList.drop _ = _
        rw [hximg]
        have hi : (UnixName.abstract (squeeze path)).image =
            ('\x00' :: squeeze path ++ ['\x00']) ++ List.replicate (108 - (squeeze path).length - 2) '\x00' := by
          show '\x00' :: squeeze path ++ List.replicate (107 - (squeeze path).length) '\x00' = _
          rw [show 107 - (squeeze path).length = (108 - (squeeze path).length - 2) + 1 by omega, List.replicate_succ]
          simp
        rw [hi, List.take_left' (by simp), List.drop_of_length_le (by simp; omega), List.append_nil]
      · show SM.bind _ _ a = _
        unfold SM.bind
        rw [hw]
        dsimp only
        rw [hx]
        dsimp only
        rw [if_pos (by omega), hy]
        rfl
    · refine ⟨x, hximg, ?_⟩
      show SM.bind _ _ a = _
      unfold SM.bind
      rw [hw]
      dsimp only
      rw [hx]
      dsimp only
      rw [if_neg (by omega)]
      rfl

/-! ## What the public functions see -/

theorem get_of_toList {v : Vector Char 108} {x y : Char} {l : List Char} (h : v.toList = x :: y :: l) :
    v[0] = x ∧ v[1] = y := by
  constructor
  · rw [← Vector.getElem_toList (by simp)]
    simp [h]
  · rw [← Vector.getElem_toList (by simp)]
    simp [h]

theorem get_zero_of_toList {v : Vector Char 108} {x : Char} {l : List Char} (h : v.toList = x :: l) : v[0] = x := by
  rw [← Vector.getElem_toList (by simp)]
  simp [h]

theorem legal_cons {utf8 : Str → Option (List Nat)} {m : Nat} {n : Str} (hu : Utf8Ascii utf8)
    (h : LegalName utf8 m n) : ∃ c t, n = c :: t ∧ c ≠ '\x00' := by
  cases n with
  | nil => exact absurd rfl h.1.1
  | cons c t => exact ⟨c, t, rfl, legal_noNul hu h c (by simp)⟩

theorem readCString_of {v : Vector Char 108} {pos k : Nat} {n : Str} (hn : ∀ c ∈ n, c ≠ '\x00') (hk : k ≠ 0)
    (h : v.toList.drop pos = n ++ List.replicate k '\x00') : readCString v pos = .ok n := by
  unfold readCString
  rw [h, if_pos, cstr_pad hn]
  exact List.mem_append_right _ (List.mem_replicate.2 ⟨hk, rfl⟩)

theorem shows_of {env : UnixEnv} (hu : Utf8Ascii env.utf8) {a : UnixAddr} {n : UnixName} (hl : n.Legal env.utf8)
    (hf : a.address.family = AF_UNIX) (hp : a.address.path.toList = n.image) : a.Shows n := by
  cases n with
  | unnamed =>
    have h2 := get_of_toList (x := '\x00') (y := '\x00') (l := List.replicate 106 '\x00') hp
    refine ⟨hf, hp, ?_, ?_, ?_, ?_, ?_⟩
    · simp [UnixAddr.isUnnamed, h2]
    · simp [UnixAddr.isFile, h2]
    · simp [UnixAddr.isAbstract, h2]
    · unfold UnixAddr.toStr
      rw [show a.isAbstract = false by simp [UnixAddr.isAbstract, h2]]
      exact readCString_of (n := []) (k := 108) (by simp) (by decide) hp
    · simp [UnixAddr.unlinkName, UnixAddr.isFile, h2]
  | file n =>
    obtain ⟨c, t, hct, hc⟩ := legal_cons hu hl
    have hlen : n.length ≤ 107 := hl.2.1
    have hnn := legal_noNul hu hl
    have h2 : a.address.path[0] = c := by
      refine get_zero_of_toList (l := t ++ List.replicate (108 - n.length) '\x00') ?_
      rw [hp, hct]; rfl
    have hr : readCString a.address.path 0 = .ok n :=
      readCString_of (k := 108 - n.length) hnn (by omega) (by rw [List.drop_zero, hp]; rfl)
    refine ⟨hf, hp, ?_, ?_, ?_, ?_, ?_⟩
    · simp [UnixAddr.isUnnamed, h2, hc]
    · simp [UnixAddr.isFile, h2, hc, UnixName.text]
    · simp [UnixAddr.isAbstract, h2, hc]
    · unfold UnixAddr.toStr
      rw [show a.isAbstract = false by simp [UnixAddr.isAbstract, h2, hc]]
      exact hr
    · simp [UnixAddr.unlinkName, UnixAddr.isFile, h2, hc, hr, UnixName.text]
  | abstract n =>
    obtain ⟨c, t, hct, hc⟩ := legal_cons hu hl
    have hlen : n.length ≤ 106 := hl.2.1
    have hnn := legal_noNul hu hl
    have h2 : a.address.path[0] = '\x00' ∧ a.address.path[1] = c := by
      refine get_of_toList (l := t ++ List.replicate (107 - n.length) '\x00') ?_
      rw [hp, hct]; rfl
    have hr : readCString a.address.path 1 = .ok n :=
      readCString_of (k := 107 - n.length) hnn (by omega) (by rw [hp]; rfl)
    refine ⟨hf, hp, ?_, ?_, ?_, ?_, ?_⟩
    · simp [UnixAddr.isUnnamed, h2, hc]
    · simp [UnixAddr.isFile, h2]
    · simp [UnixAddr.isAbstract, h2, hc, UnixName.text]
    · unfold UnixAddr.toStr
      rw [show a.isAbstract = true by simp [UnixAddr.isAbstract, h2, hc]]
      exact hr
    · simp [UnixAddr.unlinkName, UnixAddr.isFile, h2]

/-! ## Calls -/

/-- A call which threw and changed nothing, or which stored a legal name. -/
def Stores (env : UnixEnv) (a : UnixAddr) (r : UnixAddr × Res Unit) : Prop :=
  (∃ e, r = (a, .throw e)) ∨
    ∃ n v, UnixName.Legal env.utf8 n ∧ Vector.toList v = n.image ∧ r = (a.withPath v, .ok ())

theorem stores_unnamed (env : UnixEnv) (a : UnixAddr) : Stores env a (UnixAddr.makeUnnamed a) := by
  obtain ⟨v, hv, h⟩ := makeUnnamed_run a
  exact Or.inr ⟨.unnamed, v, trivial, hv, h⟩

theorem stores_file (env : UnixEnv) (a : UnixAddr) (s : Str) : Stores env a (UnixAddr.setFile env s a) := by
  rcases setFile_run env a s with ⟨hl, v, hv, h⟩ | ⟨-, e, h⟩
  · exact Or.inr ⟨.file _, v, hl, hv, h⟩
  · exact Or.inl ⟨e, h⟩

theorem stores_abstract {env : UnixEnv} (hu : Utf8Ascii env.utf8) (a : UnixAddr) (s : Str) :
    Stores env a (UnixAddr.setAbstract env s a) := by
  rcases setAbstract_run env hu a s with ⟨hl, v, hv, h⟩ | ⟨-, e, h⟩
  · exact Or.inr ⟨.abstract _, v, hl, hv, h⟩
  · exact Or.inl ⟨e, h⟩

theorem stores_un {env : UnixEnv} (hu : Utf8Ascii env.utf8) (a : UnixAddr) (un : SockaddrUn) :
    Stores env a (UnixAddr.setUn env un a) := by
  unfold UnixAddr.setUn
  dsimp only
  by_cases h1 : un.family ≠ AF_UNIX
  · rw [if_pos h1]; exact Or.inl ⟨_, rfl⟩
  · rw [if_neg h1]
    by_cases h2 : un.path[0] ≠ '\x00'
    · rw [if_pos h2]
      by_cases h3 : (cstr un.path.toList).length = 108
      · rw [if_pos h3]; exact Or.inl ⟨_, rfl⟩
      · rw [if_neg h3]; exact stores_file _ _ _
    · rw [if_neg h2]
      by_cases h4 : un.path[1] ≠ '\x00'
      · rw [if_pos h4]
        by_cases h3 : (cstr (un.path.toList.drop 1)).length = 108 - 1
        · rw [if_pos h3]; exact Or.inl ⟨_, rfl⟩
        · rw [if_neg h3]; exact stores_abstract hu _ _
      · rw [if_neg h4]; exact stores_unnamed _ _

/-- The scheme kept for a scheme given. -/
def keptScheme (s : Str) : Str := if s = "unix".toList then [] else s

/-- `set_uri()`: it threw and changed nothing, or it stored a name without question mark and the scheme. -/
theorem setUri_run {env : UnixEnv} (hu : Utf8Ascii env.utf8) (a : UnixAddr) (uri : Str) :
    (∃ e, UnixAddr.setUri env uri a = (a, .throw e)) ∨
      ∃ scheme rest n v, Parser.splitFirst ':' uri = some (scheme, rest) ∧ scheme ≠ [] ∧
        UnixAddr.badScheme scheme true = false ∧ UnixName.Legal env.utf8 n ∧ '?' ∉ n.text ∧
        Vector.toList v = n.image ∧
        UnixAddr.setUri env uri a = ({ a.withPath v with scheme := keptScheme scheme }, .ok ()) := by
  unfold UnixAddr.setUri
  cases hs : Parser.splitFirst ':' uri with
  | none => exact Or.inl ⟨_, rfl⟩
  | some c =>
    obtain ⟨scheme, rest⟩ := c
    dsimp only
    by_cases h1 : scheme = []
    · rw [if_pos h1]; exact Or.inl ⟨_, rfl⟩
    rw [if_neg h1]
    by_cases h2 : UnixAddr.badScheme scheme true = true
    · rw [if_pos h2]; exact Or.inl ⟨_, rfl⟩
    rw [if_neg h2]
    have hcut : '?' ∉ ((Parser.splitFirst '?' rest).getD (rest, [])).1 := by
      cases hq : Parser.splitFirst '?' rest with
      | none => exact Parser.splitFirst_none.1 hq
      | some c => exact (Parser.splitFirst_some hq).2
    generalize (Parser.splitFirst '?' rest).getD (rest, []) = cut at hcut
    obtain ⟨address, query⟩ := cut
    dsimp only at hcut ⊢
    have hsq : '?' ∉ squeeze address := fun h => hcut (squeeze_sub h)
    have fin : ∀ m : SM UnixAddr Unit,
        ((∃ e, m a = (a, .throw e)) ∨
          ∃ n v, UnixName.Legal env.utf8 n ∧ '?' ∉ n.text ∧ Vector.toList v = n.image ∧ m a = (a.withPath v, .ok ())) →
        (∃ e, SM.bind m (fun _ => UnixAddr.setScheme scheme) a = (a, .throw e)) ∨
          ∃ scheme' rest' n v, some (scheme, rest) = some (scheme', rest') ∧ scheme' ≠ [] ∧
            UnixAddr.badScheme scheme' true = false ∧ UnixName.Legal env.utf8 n ∧ '?' ∉ n.text ∧
            Vector.toList v = n.image ∧
            SM.bind m (fun _ => UnixAddr.setScheme scheme) a =
              ({ a.withPath v with scheme := keptScheme scheme' }, .ok ()) := by
      rintro m (⟨e, h⟩ | ⟨n, v, hl, hq, hv, h⟩)
      · refine Or.inl ⟨e, ?_⟩
        unfold SM.bind
        rw [h]
      · refine Or.inr ⟨scheme, rest, n, v, rfl, h1, by simpa using h2, hl, hq, hv, ?_⟩
        unfold SM.bind
        rw [h]
        rfl
    have hun : ∃ n v, UnixName.Legal env.utf8 n ∧ '?' ∉ n.text ∧ Vector.toList v = n.image ∧
        UnixAddr.makeUnnamed a = (a.withPath v, .ok ()) := by
      obtain ⟨v, hv, h⟩ := makeUnnamed_run a
      exact ⟨.unnamed, v, trivial, by simp [UnixName.text], hv, h⟩
    have hfi : (∃ e, UnixAddr.setFile env address a = (a, .throw e)) ∨ ∃ n v, UnixName.Legal env.utf8 n ∧ '?' ∉ n.text ∧
        Vector.toList v = n.image ∧ UnixAddr.setFile env address a = (a.withPath v, .ok ()) := by
      rcases setFile_run env a address with ⟨hl, v, hv, h⟩ | ⟨-, e, h⟩
      · exact Or.inr ⟨.file _, v, hl, hsq, hv, h⟩
      · exact Or.inl ⟨e, h⟩
    have hab : (∃ e, UnixAddr.setAbstract env address a = (a, .throw e)) ∨ ∃ n v, UnixName.Legal env.utf8 n ∧
        '?' ∉ n.text ∧ Vector.toList v = n.image ∧ UnixAddr.setAbstract env address a = (a.withPath v, .ok ()) := by
      rcases setAbstract_run env hu a address with ⟨hl, v, hv, h⟩ | ⟨-, e, h⟩
      · exact Or.inr ⟨.abstract _, v, hl, hsq, hv, h⟩
      · exact Or.inl ⟨e, h⟩
    apply fin
    split
    · split
      · exact Or.inr hun
      · exact hfi
    · split
      · split
        · exact Or.inl ⟨_, rfl⟩
        · exact Or.inr hun
      · split
        · exact hfi
        · split
          · exact hab
          · exact Or.inl ⟨_, rfl⟩

/-- The state of an address which a program can hold. -/
def GoodUnix (env : UnixEnv) (a : UnixAddr) : Prop :=
  a.address.family = AF_UNIX ∧ ∃ n, UnixName.Legal env.utf8 n ∧ a.address.path.toList = n.image

theorem good_of_stores {env : UnixEnv} {a : UnixAddr} {r : UnixAddr × Res Unit} (h : Stores env a r)
    (hg : GoodUnix env a) : GoodUnix env r.1 ∧ (r.2.isThrow = true → r.1 = a) ∧ ∀ w, r.2 ≠ .ub w := by
  rcases h with ⟨e, rfl⟩ | ⟨n, v, hl, hv, rfl⟩
  · exact ⟨hg, fun _ => rfl, fun w h => nomatch h⟩
  · exact ⟨⟨hg.1, n, hl, hv⟩, fun h => (nomatch h), fun w h => nomatch h⟩

theorem good_create (env : UnixEnv) : GoodUnix env UnixAddr.create := by
  refine ⟨rfl, .unnamed, trivial, ?_⟩
  show (Vector.replicate 108 '\x00').toList = List.replicate 108 '\x00'
  simp

theorem good_run {env : UnixEnv} (hu : Utf8Ascii env.utf8) (op : UnixOp) {a : UnixAddr} (hg : GoodUnix env a) :
    GoodUnix env (op.run env a).1 ∧ ((op.run env a).2.isThrow = true → (op.run env a).1 = a) ∧
      ∀ w, (op.run env a).2 ≠ .ub w := by
  cases op with
  | setScheme s => exact ⟨hg, fun h => (nomatch h), fun w h => nomatch h⟩
  | setMode m => exact ⟨hg, fun h => (nomatch h), fun w h => nomatch h⟩
  | setGroup s => exact ⟨hg, fun h => (nomatch h), fun w h => nomatch h⟩
  | setUn un => exact good_of_stores (stores_un hu a un) hg
  | makeUnnamed => exact good_of_stores (stores_unnamed env a) hg
  | setFile s => exact good_of_stores (stores_file env a s) hg
  | setAbstract s => exact good_of_stores (stores_abstract hu a s) hg
  | setUri s =>
    show GoodUnix env (UnixAddr.setUri env s a).1 ∧ ((UnixAddr.setUri env s a).2.isThrow = true →
      (UnixAddr.setUri env s a).1 = a) ∧ ∀ w, (UnixAddr.setUri env s a).2 ≠ .ub w
    rcases setUri_run hu a s with ⟨e, h⟩ | ⟨sc, re, n, v, -, -, -, hl, -, hv, h⟩
    · rw [h]; exact ⟨hg, fun _ => rfl, fun w h => nomatch h⟩
    · rw [h]; exact ⟨⟨hg.1, n, hl, hv⟩, fun h => (nomatch h), fun w h => nomatch h⟩
  | setFromSocket nm =>
    show GoodUnix env (SM.bind (UnixAddr.setFromSocket env nm) (fun _ => SM.pure ()) a).1 ∧
      ((SM.bind (UnixAddr.setFromSocket env nm) (fun _ => SM.pure ()) a).2.isThrow = true →
      (SM.bind (UnixAddr.setFromSocket env nm) (fun _ => SM.pure ()) a).1 = a) ∧
      ∀ w, (SM.bind (UnixAddr.setFromSocket env nm) (fun _ => SM.pure ()) a).2 ≠ .ub w
    cases nm with
    | fails => exact ⟨hg, fun h => (nomatch h), fun w h => nomatch h⟩
    | gives un len =>
      by_cases hf : un.family ≠ AF_UNIX
      · have : UnixAddr.setFromSocket env (.gives un len) a = (a, .ok false) := if_pos hf
        unfold SM.bind
        rw [this]
        exact ⟨hg, fun h => (nomatch h), fun w h => nomatch h⟩
      · generalize hx : (if len < 110 then UnixAddr.clearTail un len else un) = un'
        have : UnixAddr.setFromSocket env (.gives un len) a =
            SM.bind (UnixAddr.setUn env un') (fun _ => SM.pure true) a := by
          rw [← hx]
          exact if_neg hf
        rcases stores_un hu a un' with ⟨e, h⟩ | ⟨n, v, hl, hv, h⟩
        · unfold SM.bind at this ⊢
          rw [this, h]
          exact ⟨hg, fun _ => rfl, fun w h => nomatch h⟩
        · unfold SM.bind at this ⊢
          rw [this, h]
          exact ⟨⟨hg.1, n, hl, hv⟩, fun h => (nomatch h), fun w h => nomatch h⟩

theorem good_reachable {env : UnixEnv} (hu : Utf8Ascii env.utf8) {a : UnixAddr} (h : UnixReachable env a) :
    GoodUnix env a := by
  induction h with
  | create => exact good_create env
  | @ofUn un a h =>
    unfold UnixAddr.ofUn at h
    have := (good_of_stores (stores_un hu UnixAddr.create un) (good_create env)).1
    revert h this
    generalize UnixAddr.setUn env un UnixAddr.create = r
    obtain ⟨b, x⟩ := r
    cases x <;> intro h this <;> cases h
    exact this
  | @ofString s abstract a h =>
    unfold UnixAddr.ofString at h
    have : GoodUnix env ((if abstract then UnixAddr.setAbstract env s else if s ≠ [] then UnixAddr.setFile env s
        else SM.pure ()) UnixAddr.create).1 := by
      cases abstract with
      | true => exact (good_of_stores (stores_abstract hu UnixAddr.create s) (good_create env)).1
      | false =>
        by_cases hs : s ≠ []
        · rw [if_neg (by simp), if_pos hs]
          exact (good_of_stores (stores_file env UnixAddr.create s) (good_create env)).1
        · rw [if_neg (by simp), if_neg hs]
          exact good_create env
    revert h this
    generalize (if abstract then UnixAddr.setAbstract env s else if s ≠ [] then UnixAddr.setFile env s
        else SM.pure ()) UnixAddr.create = r
    obtain ⟨b, x⟩ := r
    cases x <;> intro h this <;> cases h
    exact this
  | call op _ ih => exact (good_run hu op ih).1

end Verif
