import Verif.Lemmas.UnixOrder

/-!
# C47, C48, C49 and C60: the Unix addresses
-/

namespace Verif
open Spec

/-- A decoder which accepts ASCII only. -/
def asciiEnv : UnixEnv :=
  { utf8 := fun s => if s.all (fun c => decide (c.toNat < 0x80)) then some (s.map Char.toNat) else none }

theorem asciiEnv_ascii : Utf8Ascii asciiEnv.utf8 := by
  intro s l h c hc _
  unfold asciiEnv at h
  dsimp only at h
  split at h
  · cases h
    exact List.mem_map_of_mem hc
  · cases h

/-! ## C47 -/

/-- **C47**: whatever was called before, an address is unnamed, or a file or an abstract name which is canonical, without
controls and short enough for a NUL to follow it; all the bytes of `sun_path` after the name are NUL; and all the public
functions agree on that. -/
theorem C47_unix_state {env : UnixEnv} (hu : Utf8Ascii env.utf8) {a : UnixAddr} (h : UnixReachable env a) :
    ∃ n, UnixName.Legal env.utf8 n ∧ a.Shows n := by
  obtain ⟨hf, n, hl, hp⟩ := good_reachable hu h
  exact ⟨n, hl, shows_of hu hl hf hp⟩

example : UnixReachable asciiEnv (UnixOp.run asciiEnv (.setUri "cd:///run//sock/".toList) UnixAddr.create).1 ∧
    (UnixOp.run asciiEnv (.setUri "cd:///run//sock/".toList) UnixAddr.create).1.toStr = .ok "/run/sock".toList :=
  ⟨.call _ .create, by decide +kernel⟩

/-- **C47**: `set_file()` accepts a path exactly when its canonical form is a legal name of at most 107 bytes; it then
becomes this file, everything else being kept; otherwise it throws and nothing changes. -/
theorem C47_set_file {env : UnixEnv} (hu : Utf8Ascii env.utf8) {a : UnixAddr} (h : UnixReachable env a) (path : Str) :
    (LegalName env.utf8 107 (squeeze path) →
      ∃ b, UnixAddr.setFile env path a = (b, .ok ()) ∧ b.Shows (.file (squeeze path)) ∧ b.scheme = a.scheme ∧
        b.mode = a.mode ∧ b.group = a.group) ∧
    (¬ LegalName env.utf8 107 (squeeze path) → ∃ e, UnixAddr.setFile env path a = (a, .throw e)) := by
  have hg := good_reachable hu h
  rcases setFile_run env a path with ⟨hl, v, hv, hr⟩ | ⟨hn, he⟩
  · exact ⟨fun _ => ⟨_, hr, shows_of hu hl hg.1 hv, rfl, rfl, rfl⟩, fun hn => absurd hl hn⟩
  · exact ⟨fun hl => absurd hl hn, fun _ => he⟩

/-- **C47**: the same for `set_abstract()`, with at most 106 bytes. -/
theorem C47_set_abstract {env : UnixEnv} (hu : Utf8Ascii env.utf8) {a : UnixAddr} (h : UnixReachable env a) (path : Str) :
    (LegalName env.utf8 106 (squeeze path) →
      ∃ b, UnixAddr.setAbstract env path a = (b, .ok ()) ∧ b.Shows (.abstract (squeeze path)) ∧ b.scheme = a.scheme ∧
        b.mode = a.mode ∧ b.group = a.group) ∧
    (¬ LegalName env.utf8 106 (squeeze path) → ∃ e, UnixAddr.setAbstract env path a = (a, .throw e)) := by
  have hg := good_reachable hu h
  rcases setAbstract_run env hu a path with ⟨hl, v, hv, hr⟩ | ⟨hn, he⟩
  · exact ⟨fun _ => ⟨_, hr, shows_of hu hl hg.1 hv, rfl, rfl, rfl⟩, fun hn => absurd hl hn⟩
  · exact ⟨fun hl => absurd hl hn, fun _ => he⟩

/-- **C47**: `make_unnamed()`. -/
theorem C47_make_unnamed {env : UnixEnv} (hu : Utf8Ascii env.utf8) {a : UnixAddr} (h : UnixReachable env a) :
    ∃ b, UnixAddr.makeUnnamed a = (b, .ok ()) ∧ b.Shows .unnamed ∧ b.scheme = a.scheme ∧ b.mode = a.mode ∧
      b.group = a.group := by
  obtain ⟨v, hv, hr⟩ := makeUnnamed_run a
  exact ⟨_, hr, shows_of (n := .unnamed) hu trivial (good_reachable hu h).1 hv, rfl, rfl, rfl⟩

/-- **C47**: a new address is unnamed, of scheme `unix`, with the mode 0600 and no group; the constructor from a string
is `set_abstract()` or, on a string which is not empty, `set_file()`. -/
theorem C47_constructed {env : UnixEnv} (hu : Utf8Ascii env.utf8) :
    UnixAddr.create.Shows .unnamed ∧ UnixAddr.create.getScheme = "unix".toList ∧ UnixAddr.create.mode = 384 ∧
      UnixAddr.create.group = [] ∧
      (∀ a s, UnixAddr.ofString env s true = .ok a ↔ UnixAddr.setAbstract env s UnixAddr.create = (a, .ok ())) ∧
      (∀ a s, s ≠ [] → (UnixAddr.ofString env s false = .ok a ↔ UnixAddr.setFile env s UnixAddr.create = (a, .ok ()))) ∧
      UnixAddr.ofString env [] false = .ok UnixAddr.create := by
  refine ⟨shows_of (n := .unnamed) hu trivial rfl ?_, rfl, rfl, rfl, fun a s => ?_, fun a s hs => ?_, rfl⟩
  · show (Vector.replicate 108 '\x00').toList = List.replicate 108 '\x00'
    simp
  · show (match UnixAddr.setAbstract env s UnixAddr.create with
      | (a, .ok ()) => Res.ok a | (_, .throw e) => .throw e | (_, .ub w) => .ub w) = .ok a ↔ _
    generalize UnixAddr.setAbstract env s UnixAddr.create = r
    obtain ⟨b, x⟩ := r
    cases x <;> simp
  · unfold UnixAddr.ofString
    rw [if_neg (by simp), if_pos hs]
    generalize UnixAddr.setFile env s UnixAddr.create = r
    obtain ⟨b, x⟩ := r
    cases x <;> simp

/-- **C47**: the canonical form is canonical, and a path which is already canonical is kept as it is. -/
theorem C47_canonical (path : Str) :
    (squeeze path ≠ [] → Canonical (squeeze path)) ∧ (Canonical path → squeeze path = path) ∧
      (squeeze path).length ≤ path.length := by
  refine ⟨squeeze_canonical, squeeze_of_canonical, ?_⟩
  induction path with
  | nil => exact Nat.le_refl _
  | cons c s ih =>
    rw [squeeze]
    split
    · exact Nat.le_succ_of_le ih
    · exact Nat.succ_le_succ ih

example : LegalName asciiEnv.utf8 107 (squeeze "//run///my.sock//".toList) ∧
    squeeze "//run///my.sock//".toList = "/run/my.sock".toList := by
  have h : squeeze "//run///my.sock//".toList = "/run/my.sock".toList := by decide +kernel
  rw [h]
  refine ⟨⟨⟨by decide +kernel, by decide +kernel, by decide +kernel⟩, by decide +kernel,
    "/run/my.sock".toList.map Char.toNat, by decide +kernel, ?_⟩, rfl⟩
  unfold IsControl
  decide +kernel

/-- **C47**: no call, whatever its arguments, leads to undefined behaviour; a call which throws changes nothing; and
printing an address or deleting its file never reads outside of `sun_path`. -/
theorem C47_calls_are_safe {env : UnixEnv} (hu : Utf8Ascii env.utf8) {a : UnixAddr} (h : UnixReachable env a)
    (op : UnixOp) :
    ((op.run env a).2.isThrow = true → (op.run env a).1 = a) ∧ (∀ w, (op.run env a).2 ≠ .ub w) ∧
      (∃ s, a.toStr = .ok s) ∧ (∃ s, a.toUri = .ok s) ∧ ∃ s, a.unlinkName = .ok s := by
  have hg := good_run hu op (good_reachable hu h)
  obtain ⟨n, hl, hs⟩ := C47_unix_state hu h
  exact ⟨hg.2.1, hg.2.2, ⟨_, hs.text⟩, ⟨_, toUri_shows hs⟩, _, hs.unlink⟩

example : ((UnixOp.setUri "cd:/run/sock?nope".toList).run asciiEnv UnixAddr.create).2 = .throw .invalidArgument ∧
    ((UnixOp.setFile (List.replicate 108 'a')).run asciiEnv UnixAddr.create).2 = .throw .invalidArgument ∧
    ((UnixOp.setFile (List.replicate 107 'a')).run asciiEnv UnixAddr.create).2 = .ok () := by
  decide +kernel

/-! ## C48 -/

/-- **C48**: two addresses are equal exactly when they are of the same kind and have the same name; they are ordered by
kind (unnamed, abstract, file) and then by name; the six operators agree. -/
theorem C48_unix_order {env : UnixEnv} (hu : Utf8Ascii env.utf8) {a b : UnixAddr} {x y : UnixName}
    (hx : UnixName.Legal env.utf8 x) (hy : UnixName.Legal env.utf8 y) (ha : a.Shows x) (hb : b.Shows y) :
    (a.eq b = true ↔ x = y) ∧ (a.ne b = true ↔ x ≠ y) ∧ (a.lt b = true ↔ x.Before y) ∧
      (a.le b = true ↔ x.Before y ∨ x = y) ∧ (a.gt b = true ↔ y.Before x) ∧ (a.ge b = true ↔ y.Before x ∨ x = y) := by
  obtain ⟨h0, h1⟩ := cmp_spec hu hx hy ha hb
  obtain ⟨h2, h3⟩ := cmp_spec hu hy hx hb ha
  have hneg : UnixAddr.cmp b a = - UnixAddr.cmp a b := memcmp_neg _ _
  rw [hneg] at h3
  refine ⟨?_, ?_, ?_, ?_, ?_, ?_⟩
  · rw [← h0]; simp [UnixAddr.eq]
  · rw [Ne, ← h0]; simp [UnixAddr.ne]
  · rw [← h1]; simp [UnixAddr.lt]
  · rw [← h1, ← h0]; simp [UnixAddr.le]; omega
  · rw [← h3]; simp [UnixAddr.gt]
  · rw [← h3, ← h0]; simp [UnixAddr.ge]; omega

/-- **C48**: the order is total. -/
theorem C48_unix_total {env : UnixEnv} (hu : Utf8Ascii env.utf8) {a b c : UnixAddr} (ha : UnixReachable env a)
    (hb : UnixReachable env b) (hc : UnixReachable env c) :
    a.lt a = false ∧ (a.lt b = true ∨ a.eq b = true ∨ b.lt a = true) ∧
      (a.lt b = true → b.lt c = true → a.lt c = true) ∧ (a.lt b = true → b.lt a = false) ∧
      (a.eq b = true → b.eq c = true → a.eq c = true) ∧ a.eq b = b.eq a := by
  obtain ⟨x, hx, ax⟩ := C47_unix_state hu ha
  obtain ⟨y, hy, by'⟩ := C47_unix_state hu hb
  obtain ⟨z, hz, cz⟩ := C47_unix_state hu hc
  have hab := C48_unix_order hu hx hy ax by'
  have hbc := C48_unix_order hu hy hz by' cz
  have hac := C48_unix_order hu hx hz ax cz
  have hba := C48_unix_order hu hy hx by' ax
  have haa := C48_unix_order hu hx hx ax ax
  have irr : ∀ u : UnixName, ¬ u.Before u := by
    rintro u (h | ⟨-, h⟩)
    · omega
    · exact List.lt_irrefl _ h
  have tr : ∀ u v w : UnixName, u.Before v → v.Before w → u.Before w := by
    rintro u v w (h | ⟨h, h'⟩) (k | ⟨k, k'⟩)
    · exact Or.inl (by omega)
    · exact Or.inl (by omega)
    · exact Or.inl (by omega)
    · exact Or.inr ⟨by omega, List.lt_trans h' k'⟩
  refine ⟨?_, ?_, ?_, ?_, ?_, ?_⟩
  · rw [← Bool.not_eq_true, haa.2.2.1]; exact irr x
  · rw [hab.2.2.1, hab.1, hba.2.2.1]
    rcases Int.lt_trichotomy (UnixAddr.cmp a b) 0 with h | h | h
    · exact Or.inl ((cmp_spec hu hx hy ax by').2.1 h)
    · exact Or.inr (Or.inl ((cmp_spec hu hx hy ax by').1.1 h))
    · refine Or.inr (Or.inr ((cmp_spec hu hy hx by' ax).2.1 ?_))
      rw [show UnixAddr.cmp b a = - UnixAddr.cmp a b from memcmp_neg _ _]
      omega
  · rw [hab.2.2.1, hbc.2.2.1, hac.2.2.1]; exact tr x y z
  · rw [← Bool.not_eq_true, hab.2.2.1, hba.2.2.1]
    exact fun h k => irr x (tr x y x h k)
  · rw [hab.1, hbc.1, hac.1]; exact fun h k => h.trans k
  · rw [Bool.eq_iff_iff, hab.1, hba.1]; exact eq_comm

example : (UnixAddr.setFile asciiEnv "/run//a".toList UnixAddr.create).1.eq
      (UnixAddr.setFile asciiEnv "/run/a/".toList
        (UnixAddr.setAbstract asciiEnv "something/longer".toList UnixAddr.create).1).1 = true ∧
    (UnixAddr.setAbstract asciiEnv "/run/a".toList UnixAddr.create).1.lt
      (UnixAddr.setFile asciiEnv "/run/a".toList UnixAddr.create).1 = true := by
  decide +kernel

/-! ## C49 -/

/-- The claim of C49: reading the URI of an address gives the same kind, name and scheme. -/
def C49_claim : Prop :=
  ∀ (env : UnixEnv), Utf8Ascii env.utf8 → ∀ a b : UnixAddr, UnixReachable env a → UnixReachable env b →
    ∃ uri b', a.toUri = .ok uri ∧ UnixAddr.setUri env uri b = (b', .ok ()) ∧ b'.eq a = true ∧ b'.getScheme = a.getScheme

/-- C49 is false: the file `foo?abstract` becomes the abstract name `foo`. -/
theorem C49_claim_fails : ¬ C49_claim := by
  intro h
  obtain ⟨uri, b', h1, h2, h3, -⟩ := h asciiEnv asciiEnv_ascii
    ((UnixOp.setFile "foo?abstract".toList).run asciiEnv UnixAddr.create).1 UnixAddr.create (.call _ .create) .create
  have e1 : ((UnixOp.setFile "foo?abstract".toList).run asciiEnv UnixAddr.create).1.toUri =
      .ok "unix:foo?abstract".toList := by decide +kernel
  rw [e1] at h1
  cases h1
  have e2 : (UnixAddr.setUri asciiEnv "unix:foo?abstract".toList UnixAddr.create).1.eq
      ((UnixOp.setFile "foo?abstract".toList).run asciiEnv UnixAddr.create).1 = false := by decide +kernel
  rw [h2] at e2
  rw [e2] at h3
  cases h3

/-- **C49**, exactly: reading the URI of an address restores its kind, name and scheme if and only if its scheme is one
of RFC 3986 and its name has no question mark. -/
theorem C49_uri_round_trip_partial {env : UnixEnv} (hu : Utf8Ascii env.utf8) {a b : UnixAddr} {n : UnixName}
    (hl : UnixName.Legal env.utf8 n) (ha : a.Shows n) (hb : UnixReachable env b) :
    (∃ uri b', a.toUri = .ok uri ∧ UnixAddr.setUri env uri b = (b', .ok ()) ∧ b'.Shows n ∧ b'.eq a = true ∧
      b'.getScheme = a.getScheme ∧ b'.mode = b.mode ∧ b'.group = b.group) ↔
    SchemeOk a.getScheme ∧ '?' ∉ n.text := by
  have hg := good_reachable hu hb
  have kept : ∀ (b : UnixAddr) (v : Vector Char 108) (s : Str), s ≠ [] →
      UnixAddr.getScheme { b.withPath v with scheme := keptScheme s } = s := by
    intro b v s hs
    unfold UnixAddr.getScheme keptScheme
    by_cases h : s = "unix".toList
    · simp [h]
    · simp only [if_neg h, if_neg hs]
  constructor
  · rintro ⟨uri, b', h1, h2, h3, -, h4, -, -⟩
    rcases setUri_run hu b uri with ⟨e, h⟩ | ⟨sc, re, m, v, hsp, hne, hbad, hlm, hq, hv, h⟩
    · rw [h] at h2; cases h2
    · rw [h] at h2
      cases h2
      rw [kept b v sc hne] at h4
      subst h4
      refine ⟨schemeOk_iff.1 ⟨hne, hbad⟩, ?_⟩
      have hs : UnixAddr.Shows { b.withPath v with scheme := keptScheme a.getScheme } m := shows_of hu hlm hg.1 hv
      rw [shows_unique hu hl hlm h3 hs]
      exact hq
  · rintro ⟨hs, hq⟩
    obtain ⟨v, hv, h⟩ := setUri_body hu b hs hl hq
    have hsh : UnixAddr.Shows { b.withPath v with scheme := keptScheme a.getScheme } n := shows_of hu hl hg.1 hv
    refine ⟨_, _, toUri_shows ha, h, hsh, ?_, kept b v _ ?_, rfl, rfl⟩
    · exact (C48_unix_order hu hl hl hsh ha).1.2 rfl
    · exact (schemeOk_iff.2 hs).1

/-- **C49**: the text of the URI. -/
theorem C49_uri_text {a : UnixAddr} {n : UnixName} (ha : a.Shows n) :
    a.toUri = .ok (a.getScheme ++ ':' :: match n with
      | .unnamed => []
      | .file n => (if n.head? = some '/' then "//".toList else []) ++ n
      | .abstract n => (if n.head? = some '/' then "//".toList else []) ++ n ++ "?abstract".toList) := by
  rw [toUri_shows ha]
  cases n <;> rfl

/-- **C49**: whatever the URI, `set_uri()` ends in an exception without any change or it sets a scheme of RFC 3986 and a
legal name. -/
theorem C49_set_uri {env : UnixEnv} (hu : Utf8Ascii env.utf8) {a : UnixAddr} (h : UnixReachable env a) (uri : Str) :
    (∃ e, UnixAddr.setUri env uri a = (a, .throw e)) ∨
      ∃ b n, UnixAddr.setUri env uri a = (b, .ok ()) ∧ UnixName.Legal env.utf8 n ∧ b.Shows n ∧ SchemeOk b.getScheme ∧
        (b.getScheme ++ [':']) <+: uri ∧ '?' ∉ n.text := by
  rcases setUri_run hu a uri with h' | ⟨sc, re, m, v, hsp, hne, hbad, hlm, hq, hv, h'⟩
  · exact Or.inl h'
  · have hk : UnixAddr.getScheme { a.withPath v with scheme := keptScheme sc } = sc := by
      unfold UnixAddr.getScheme keptScheme
      by_cases h : sc = "unix".toList
      · simp [h]
      · simp only [if_neg h, if_neg hne]
    refine Or.inr ⟨_, m, h', hlm, shows_of hu hlm (good_reachable hu h).1 hv, ?_, ?_, hq⟩
    · rw [hk]; exact schemeOk_iff.1 ⟨hne, hbad⟩
    · rw [hk, (Parser.splitFirst_some hsp).1]
      exact ⟨re, by simp⟩

example : SchemeOk "cd".toList ∧ '?' ∉ "/run/cd.sock".toList ∧
    UnixAddr.Shows (UnixAddr.setUri asciiEnv "cd:/run/cd.sock".toList UnixAddr.create).1 (.file "/run/cd.sock".toList) := by
  refine ⟨⟨'c', ['d'], rfl, by decide, by decide⟩, by decide, ?_⟩
  constructor <;> decide +kernel

/-! ## C60 -/

/-- **C60**: the `sockaddr_un` of an address gives an equal address back. -/
theorem C60_un_round_trip {env : UnixEnv} (hu : Utf8Ascii env.utf8) {a b : UnixAddr} (ha : UnixReachable env a)
    (hb : UnixReachable env b) :
    ∃ b', UnixAddr.setUn env a.getUn b = (b', .ok ()) ∧ b'.getUn = a.getUn ∧ b'.eq a = true ∧
      b'.scheme = b.scheme ∧ b'.mode = b.mode ∧ b'.group = b.group := by
  obtain ⟨hf, n, hl, hp⟩ := good_reachable hu ha
  have hg := good_reachable hu hb
  have hsh := shows_of hu hl hf hp
  have fin : ∀ v : Vector Char 108, v.toList = n.image →
      UnixAddr.setUn env a.getUn b = (b.withPath v, .ok ()) →
      ∃ b', UnixAddr.setUn env a.getUn b = (b', .ok ()) ∧ b'.getUn = a.getUn ∧ b'.eq a = true ∧
        b'.scheme = b.scheme ∧ b'.mode = b.mode ∧ b'.group = b.group := by
    intro v hv h
    have hsb : (b.withPath v).Shows n := shows_of hu hl hg.1 hv
    refine ⟨_, h, ?_, (C48_unix_order hu hl hl hsb hsh).1.2 rfl, rfl, rfl, rfl⟩
    have e1 : v = a.address.path := by
      apply Vector.toArray_inj.1
      apply Array.toList_inj.1
      exact hv.trans hp.symm
    show ({ b.address with path := v } : SockaddrUn) = a.address
    dsimp only
    rw [e1, show b.address.family = a.address.family from hg.1.trans hf.symm]
  have hfam : ¬ a.getUn.family ≠ AF_UNIX := fun h => h hf
  cases n with
  | unnamed =>
    obtain ⟨v, hv, h⟩ := makeUnnamed_run b
    refine fin v hv ?_
    have h2 := get_of_toList (x := '\x00') (y := '\x00') (l := List.replicate 106 '\x00') hp
    unfold UnixAddr.setUn
    dsimp only
    rw [if_neg hfam, if_neg (fun h => h h2.1), if_neg (fun h => h h2.2), h]
  | file n =>
    obtain ⟨c, t, hct, hc⟩ := legal_cons hu hl
    have h2 : a.address.path[0] = c := by
      refine get_zero_of_toList (l := t ++ List.replicate (108 - n.length) '\x00') ?_
      rw [hp, hct]; rfl
    have hcs : cstr a.getUn.path.toList = n := by
      show cstr a.address.path.toList = n
      rw [hp]; exact cstr_pad (legal_noNul hu hl) _
    have hlen : n.length ≤ 107 := hl.2.1
    have hsq := squeeze_of_canonical hl.1
    rcases setFile_run env b n with ⟨-, v, hv, h⟩ | ⟨hn, -⟩
    · rw [hsq] at hv
      refine fin v hv ?_
      unfold UnixAddr.setUn
      dsimp only
      rw [if_neg hfam, if_pos (by rw [show a.getUn.path[0] = c from h2]; exact hc), hcs, if_neg (by omega), h]
    · rw [hsq] at hn
      exact absurd hl hn
  | abstract n =>
    obtain ⟨c, t, hct, hc⟩ := legal_cons hu hl
    have h2 : a.address.path[0] = '\x00' ∧ a.address.path[1] = c := by
      refine get_of_toList (l := t ++ List.replicate (107 - n.length) '\x00') ?_
      rw [hp, hct]; rfl
    have hcs : cstr (a.getUn.path.toList.drop 1) = n := by
      show cstr (a.address.path.toList.drop 1) = n
      rw [hp]; exact cstr_pad (legal_noNul hu hl) _
    have hlen : n.length ≤ 106 := hl.2.1
    have hsq := squeeze_of_canonical hl.1
    rcases setAbstract_run env hu b n with ⟨-, v, hv, h⟩ | ⟨hn, -⟩
    · rw [hsq] at hv
      refine fin v hv ?_
      unfold UnixAddr.setUn
      dsimp only
      rw [if_neg hfam, if_neg (fun h => h h2.1), if_pos (by rw [show a.getUn.path[1] = c from h2.2]; exact hc), hcs,
        if_neg (by omega), h]
    · rw [hsq] at hn
      exact absurd hl hn

/-- **C60**: the text of a named address, given to the setter of its kind, gives an equal address back. -/
theorem C60_text_round_trip {env : UnixEnv} (hu : Utf8Ascii env.utf8) {a b : UnixAddr} (ha : UnixReachable env a)
    (hb : UnixReachable env b) {s : Str} (hs : a.toStr = .ok s) :
    (a.isFile = true → ∃ b', UnixAddr.setFile env s b = (b', .ok ()) ∧ b'.eq a = true) ∧
      (a.isAbstract = true → ∃ b', UnixAddr.setAbstract env s b = (b', .ok ()) ∧ b'.eq a = true) := by
  obtain ⟨n, hl, hsh⟩ := C47_unix_state hu ha
  have ht : s = n.text := by
    have := hsh.text
    rw [hs] at this
    cases this
    rfl
  subst ht
  constructor
  · intro h
    have hn := hsh.isFile.1 h
    rw [hn] at hl hsh ⊢
    obtain ⟨b', h1, h2, -⟩ := (C47_set_file hu hb n.text).1 (by rw [squeeze_of_canonical hl.1]; exact hl)
    rw [squeeze_of_canonical hl.1] at h2
    exact ⟨b', h1, (C48_unix_order hu hl hl h2 hsh).1.2 rfl⟩
  · intro h
    have hn := hsh.isAbstract.1 h
    rw [hn] at hl hsh ⊢
    obtain ⟨b', h1, h2, -⟩ := (C47_set_abstract hu hb n.text).1 (by rw [squeeze_of_canonical hl.1]; exact hl)
    rw [squeeze_of_canonical hl.1] at h2
    exact ⟨b', h1, (C48_unix_order hu hl hl h2 hsh).1.2 rfl⟩

theorem sockaddr_ext {x y : SockaddrUn} (h1 : x.family = y.family) (h2 : ∀ i (h : i < 108), x.path[i] = y.path[i]) :
    x = y := by
  obtain ⟨f, p⟩ := x
  obtain ⟨g, q⟩ := y
  dsimp only at h1
  subst h1
  congr
  exact Vector.ext h2

theorem clearTail_family (un : SockaddrUn) (length : Nat) (h : 2 ≤ length) : (UnixAddr.clearTail un length).family = un.family := by
  unfold UnixAddr.clearTail
  dsimp only
  rw [if_neg (by omega), if_neg (by omega)]

theorem clearTail_get (un : SockaddrUn) (length i : Nat) (h : i < 108) :
    (UnixAddr.clearTail un length).path[i] = if i + 2 < length then un.path[i] else '\x00' := by
  unfold UnixAddr.clearTail
  dsimp only
  rw [Vector.getElem_ofFn]
  rfl

/-- **C60**: `set_from_socket()` takes what `getsockname()` wrote and nothing beyond the length it gave, which includes the
two bytes of the family. -/
theorem C60_from_socket {env : UnixEnv} (hu : Utf8Ascii env.utf8) {a b : UnixAddr} (ha : UnixReachable env a)
    (hb : UnixReachable env b) (un : SockaddrUn) (length : Nat) (hf : un.family = AF_UNIX)
    (hl : 2 ≤ length) (h : ∀ i : Fin 108, (i.val + 2 < length → un.path[i] = a.getUn.path[i]) ∧
      (length ≤ i.val + 2 → a.getUn.path[i] = '\x00')) :
    ∃ b', UnixAddr.setFromSocket env (.gives un length) b = (b', .ok true) ∧ b'.eq a = true := by
  have haf : a.address.family = AF_UNIX := (good_reachable hu ha).1
  have he : (if length < 110 then UnixAddr.clearTail un length else un) = a.getUn := by
    by_cases hlen : length < 110
    · rw [if_pos hlen]
      refine sockaddr_ext (by rw [clearTail_family _ _ hl, hf]; exact haf.symm) fun i hi => ?_
      rw [clearTail_get]
      by_cases hi2 : i + 2 < length
      · rw [if_pos hi2]; exact (h ⟨i, hi⟩).1 hi2
      · rw [if_neg hi2]; exact ((h ⟨i, hi⟩).2 (by simp only; omega)).symm
    · rw [if_neg hlen]
      exact sockaddr_ext (hf.trans haf.symm) fun i hi => (h ⟨i, hi⟩).1 (by simp only; omega)
  obtain ⟨b', h1, -, h3, -⟩ := C60_un_round_trip hu ha hb
  refine ⟨b', ?_, h3⟩
  unfold UnixAddr.setFromSocket
  dsimp only
  rw [if_neg (fun h => h hf), he]
  unfold SM.bind
  rw [h1]
  rfl

/-- **C60**: when `set_from_socket()` returns `false` or throws nothing changed; it returns `true` only for a Unix
address. -/
theorem C60_from_socket_refuses {env : UnixEnv} (hu : Utf8Ascii env.utf8) {a : UnixAddr} (n : SockName) :
    ((UnixAddr.setFromSocket env n a).2 ≠ .ok true → (UnixAddr.setFromSocket env n a).1 = a) ∧
      ((UnixAddr.setFromSocket env n a).2 = .ok true → ∃ un length, n = .gives un length ∧ un.family = AF_UNIX) := by
  cases n with
  | fails => exact ⟨fun _ => rfl, fun h => nomatch h⟩
  | gives un length =>
    by_cases hf : un.family ≠ AF_UNIX
    · have : UnixAddr.setFromSocket env (.gives un length) a = (a, .ok false) := if_pos hf
      rw [this]
      exact ⟨fun _ => rfl, fun h => nomatch h⟩
    · refine ⟨fun h => ?_, fun _ => ⟨un, length, rfl, Decidable.not_not.1 hf⟩⟩
      generalize hx : (if length < 110 then UnixAddr.clearTail un length else un) = un'
      have he : UnixAddr.setFromSocket env (.gives un length) a =
          SM.bind (UnixAddr.setUn env un') (fun _ => SM.pure true) a := by
        rw [← hx]
        exact if_neg hf
      rw [he] at h ⊢
      unfold SM.bind at h ⊢
      rcases stores_un hu a un' with ⟨e, h'⟩ | ⟨n, v, hl, hv, h'⟩
      · rw [h']
      · rw [h'] at h
        exact absurd rfl h

example : (UnixAddr.setFromSocket asciiEnv
      (.gives { family := AF_UNIX, path := Vector.ofFn fun i => if i.val = 0 then '\x00' else 'x' } 6)
      UnixAddr.create).1.toStr = .ok "xxx".toList := by
  decide +kernel

end Verif
