import Verif.Props.Unix

/-!
# Property C125: a Unix address is the scheme, the name, the mode and the group which were set last

What each call does is described on the four things a user sees, without the 108 bytes of `sun_path`: which URIs and which
`sockaddr_un` are accepted, and what they stand for.
-/

namespace Verif

open Spec

namespace Spec

/-- What a URI stands for: its scheme and its name. A question mark ends the path. -/
inductive UriMeans : Str → Str → UnixName → Prop
  | unnamed {s q : Str} (hs : SchemeOk s) (hq : q = [] ∨ q = "?".toList ∨ q = "?unnamed".toList) : UriMeans (s ++ ':' :: q) s .unnamed
  | file {s p q : Str} (hs : SchemeOk s) (hp : p ≠ []) (hm : '?' ∉ p) (hq : q = [] ∨ q = "?".toList ∨ q = "?file".toList) :
      UriMeans (s ++ ':' :: (p ++ q)) s (.file (squeeze p))
  | abstract {s p : Str} (hs : SchemeOk s) (hm : '?' ∉ p) : UriMeans (s ++ ':' :: (p ++ "?abstract".toList)) s (.abstract (squeeze p))

/-- What the bytes of `sun_path` stand for: a name ends with a NUL. -/
inductive PathMeans : List Char → UnixName → Prop
  | unnamed {rest : List Char} : PathMeans ('\x00' :: '\x00' :: rest) .unnamed
  | file {name rest : List Char} (hn : name ≠ []) (h0 : '\x00' ∉ name) : PathMeans (name ++ '\x00' :: rest) (.file (squeeze name))
  | abstract {name rest : List Char} (hn : name ≠ []) (h0 : '\x00' ∉ name) :
      PathMeans ('\x00' :: (name ++ '\x00' :: rest)) (.abstract (squeeze name))

/-- The bytes of `sun_path` which are within `length` bytes of the structure, the others being NUL. The family takes two bytes. -/
def within (length : Nat) (path : List Char) : List Char :=
  path.take (length - 2) ++ List.replicate (path.length - (length - 2)) '\x00'

end Spec

/-- What a user sees of a Unix address. -/
structure UnixView where
  scheme : Str
  name : UnixName
  mode : Int
  group : Str

/-- The address is seen so. -/
structure UnixAddr.Looks (a : UnixAddr) (v : UnixView) : Prop where
  scheme : a.getScheme = v.scheme
  name : a.Shows v.name
  mode : a.mode = v.mode
  group : a.group = v.group

/-- What a call which succeeds does. -/
inductive UnixDoes (utf8 : Str → Option (List Nat)) : UnixOp → UnixView → UnixView → Prop
  | setScheme {s : Str} {v : UnixView} : UnixDoes utf8 (.setScheme s) v { v with scheme := if s = [] then "unix".toList else s }
  | setMode {m : Int} {v : UnixView} : UnixDoes utf8 (.setMode m) v { v with mode := m }
  | setGroup {g : Str} {v : UnixView} : UnixDoes utf8 (.setGroup g) v { v with group := g }
  | makeUnnamed {v : UnixView} : UnixDoes utf8 .makeUnnamed v { v with name := .unnamed }
  | setFile {s : Str} {v : UnixView} (h : (UnixName.file (squeeze s)).Legal utf8) :
      UnixDoes utf8 (.setFile s) v { v with name := .file (squeeze s) }
  | setAbstract {s : Str} {v : UnixView} (h : (UnixName.abstract (squeeze s)).Legal utf8) :
      UnixDoes utf8 (.setAbstract s) v { v with name := .abstract (squeeze s) }
  | setUri {uri s : Str} {n : UnixName} {v : UnixView} (hm : UriMeans uri s n) (h : n.Legal utf8) :
      UnixDoes utf8 (.setUri uri) v { v with scheme := s, name := n }
  | setUn {un : SockaddrUn} {n : UnixName} {v : UnixView} (hf : un.family = AF_UNIX) (hm : PathMeans un.path.toList n) (h : n.Legal utf8) :
      UnixDoes utf8 (.setUn un) v { v with name := n }
  | setFromSocket {un : SockaddrUn} {length : Nat} {n : UnixName} {v : UnixView} (hf : un.family = AF_UNIX) (hl : 0 < length)
      (hm : PathMeans (within length un.path.toList) n) (h : n.Legal utf8) : UnixDoes utf8 (.setFromSocket (.gives un length)) v { v with name := n }

/-- Call after call: a call which has nothing to do changes nothing. -/
inductive UnixDoesAll (utf8 : Str → Option (List Nat)) : List UnixOp → UnixView → UnixView → Prop
  | nil {v : UnixView} : UnixDoesAll utf8 [] v v
  | does {op : UnixOp} {ops : List UnixOp} {v v' v'' : UnixView} (h : UnixDoes utf8 op v v') (t : UnixDoesAll utf8 ops v' v'') :
      UnixDoesAll utf8 (op :: ops) v v''
  | refuses {op : UnixOp} {ops : List UnixOp} {v v' : UnixView} (h : ¬ ∃ v', UnixDoes utf8 op v v') (t : UnixDoesAll utf8 ops v v') :
      UnixDoesAll utf8 (op :: ops) v v'

/-- Several calls, exceptions being caught. -/
def UnixOp.runAll (env : UnixEnv) : List UnixOp → UnixAddr → UnixAddr
  | [], a => a
  | op :: ops, a => runAll env ops (op.run env a).1

/-! ### The calls -/

theorem getScheme_kept {s : Str} (a : UnixAddr) (h : s ≠ []) : UnixAddr.getScheme { a with scheme := keptScheme s } = s := by
  unfold UnixAddr.getScheme keptScheme
  by_cases h' : s = "unix".toList
  · simp [h']
  · simp only [if_neg h', if_neg h]

/-- A URI which can be read is cut as the code cuts it. -/
theorem uri_cut {uri scheme rest : Str} (h : Parser.splitFirst ':' uri = some (scheme, rest)) {s : Str} {n : UnixName} (hm : UriMeans uri s n) :
    s = scheme ∧ SchemeOk s ∧ ∃ p q, (Parser.splitFirst '?' rest).getD (rest, []) = (p, q) ∧
      ((n = .unnamed ∧ p = [] ∧ (q = [] ∨ q = "unnamed".toList)) ∨ (n = .file (squeeze p) ∧ p ≠ [] ∧ (q = [] ∨ q = "file".toList))
        ∨ (n = .abstract (squeeze p) ∧ q = "abstract".toList)) := by
  have cut (p q : Str) (hp : '?' ∉ p) : (Parser.splitFirst '?' (p ++ '?' :: q)).getD (p ++ '?' :: q, []) = (p, q) := by
    rw [Parser.splitFirst_append hp]; rfl
  have whole (p : Str) (hp : '?' ∉ p) : (Parser.splitFirst '?' p).getD (p, []) = (p, []) := by
    rw [Parser.splitFirst_none.2 hp]; rfl
  cases hm with
  | @unnamed _ q hs hq =>
    rw [Parser.splitFirst_append (schemeOk_colon hs)] at h
    cases h
    refine ⟨rfl, hs, ?_⟩
    rcases hq with rfl | rfl | rfl
    · exact ⟨[], [], whole _ (by simp), .inl ⟨rfl, rfl, .inl rfl⟩⟩
    · exact ⟨[], [], cut [] [] (by simp), .inl ⟨rfl, rfl, .inl rfl⟩⟩
    · exact ⟨[], "unnamed".toList, cut [] _ (by simp), .inl ⟨rfl, rfl, .inr rfl⟩⟩
  | @file _ p q hs hp hm hq =>
    rw [Parser.splitFirst_append (schemeOk_colon hs)] at h
    cases h
    refine ⟨rfl, hs, ?_⟩
    rcases hq with rfl | rfl | rfl
    · exact ⟨p, [], by rw [List.append_nil]; exact whole _ hm, .inr (.inl ⟨rfl, hp, .inl rfl⟩)⟩
    · exact ⟨p, [], cut p [] hm, .inr (.inl ⟨rfl, hp, .inl rfl⟩)⟩
    · exact ⟨p, "file".toList, cut p _ hm, .inr (.inl ⟨rfl, hp, .inr rfl⟩)⟩
  | @abstract _ p hs hm =>
    rw [Parser.splitFirst_append (schemeOk_colon hs)] at h
    cases h
    exact ⟨rfl, hs, p, _, cut p _ hm, .inr (.inr ⟨rfl, rfl⟩)⟩

/-- The address with another name. -/
def UnixAddr.Named (utf8 : Str → Option (List Nat)) (a : UnixAddr) (n : UnixName) (r : UnixAddr × Res Unit) : Prop :=
  n.Legal utf8 ∧ ∃ v, Vector.toList v = n.image ∧ r = (a.withPath v, .ok ())

/-- `set_uri()`: the URI stands for a legal name, which is set, or it throws. -/
theorem setUri_means {env : UnixEnv} (hu : Utf8Ascii env.utf8) (a : UnixAddr) (uri : Str) :
    (∃ s n v, UriMeans uri s n ∧ n.Legal env.utf8 ∧ Vector.toList v = n.image ∧ s ≠ []
        ∧ UnixAddr.setUri env uri a = ({ a.withPath v with scheme := keptScheme s }, .ok ()))
      ∨ ((¬ ∃ s n, UriMeans uri s n ∧ n.Legal env.utf8) ∧ ∃ e, UnixAddr.setUri env uri a = (a, .throw e)) := by
  have hex (s : Str) (n : UnixName) (hm : UriMeans uri s n) : SchemeOk s ∧ ∃ rest, Parser.splitFirst ':' uri = some (s, rest) := by
    cases hm with
    | unnamed hs _ => exact ⟨hs, _, Parser.splitFirst_append (schemeOk_colon hs)⟩
    | file hs _ _ _ => exact ⟨hs, _, Parser.splitFirst_append (schemeOk_colon hs)⟩
    | abstract hs _ => exact ⟨hs, _, Parser.splitFirst_append (schemeOk_colon hs)⟩
  unfold UnixAddr.setUri
  cases hs : Parser.splitFirst ':' uri with
  | none =>
    refine .inr ⟨?_, _, rfl⟩
    rintro ⟨s, n, hm, -⟩
    obtain ⟨_, _, h⟩ := hex s n hm
    rw [hs] at h; cases h
  | some c =>
    obtain ⟨scheme, rest⟩ := c
    dsimp only
    by_cases h1 : scheme = []
    · rw [if_pos h1]
      refine .inr ⟨?_, _, rfl⟩
      rintro ⟨s, n, hm, -⟩
      obtain ⟨rfl, hk, -⟩ := uri_cut hs hm
      exact (schemeOk_iff.2 hk).1 h1
    rw [if_neg h1]
    by_cases h2 : UnixAddr.badScheme scheme true = true
    · rw [if_pos h2]
      refine .inr ⟨?_, _, rfl⟩
      rintro ⟨s, n, hm, -⟩
      obtain ⟨rfl, hk, -⟩ := uri_cut hs hm
      rw [(schemeOk_iff.2 hk).2] at h2; cases h2
    rw [if_neg h2]
    have hok : SchemeOk scheme := schemeOk_iff.1 ⟨h1, by simpa using h2⟩
    have huri := (Parser.splitFirst_some hs).1
    have hcut : '?' ∉ ((Parser.splitFirst '?' rest).getD (rest, [])).1 ∧
        ((rest = ((Parser.splitFirst '?' rest).getD (rest, [])).1 ∧ ((Parser.splitFirst '?' rest).getD (rest, [])).2 = []) ∨
          rest = ((Parser.splitFirst '?' rest).getD (rest, [])).1 ++ '?' :: ((Parser.splitFirst '?' rest).getD (rest, [])).2) := by
      cases hq : Parser.splitFirst '?' rest with
      | none => exact ⟨Parser.splitFirst_none.1 hq, .inl ⟨rfl, rfl⟩⟩
      | some c => exact ⟨(Parser.splitFirst_some hq).2, .inr (Parser.splitFirst_some hq).1⟩
    have hback : ∀ s n, UriMeans uri s n → _ := fun s n hm => (uri_cut hs hm).2.2
    generalize (Parser.splitFirst '?' rest).getD (rest, []) = cut at hcut hback
    obtain ⟨address, query⟩ := cut
    dsimp only at hcut ⊢
    obtain ⟨hno, hrest⟩ := hcut
    -- what the four setters give
    have good (m : SM UnixAddr Unit) (n : UnixName) (hn : a.Named env.utf8 n (m a)) (hm : UriMeans uri scheme n) :
        ∃ s n v, UriMeans uri s n ∧ n.Legal env.utf8 ∧ Vector.toList v = n.image ∧ s ≠ []
          ∧ SM.bind m (fun _ => UnixAddr.setScheme scheme) a = ({ a.withPath v with scheme := keptScheme s }, .ok ()) := by
      obtain ⟨hl, v, hv, h⟩ := hn
      refine ⟨scheme, n, v, hm, hl, hv, h1, ?_⟩
      unfold SM.bind
      rw [h]
      rfl
    have bad (m : SM UnixAddr Unit) (hm : ∃ e, m a = (a, .throw e)) : ∃ e, SM.bind m (fun _ => UnixAddr.setScheme scheme) a = (a, .throw e) := by
      obtain ⟨e, h⟩ := hm
      refine ⟨e, ?_⟩
      unfold SM.bind
      rw [h]
    have means (n : UnixName) (h : ∃ s n, UriMeans uri s n ∧ n.Legal env.utf8) : ∃ n, UnixName.Legal env.utf8 n ∧
        ((n = .unnamed ∧ address = [] ∧ (query = [] ∨ query = "unnamed".toList))
          ∨ (n = .file (squeeze address) ∧ address ≠ [] ∧ (query = [] ∨ query = "file".toList))
          ∨ (n = .abstract (squeeze address) ∧ query = "abstract".toList)) := by
      obtain ⟨s, n, hm, hl⟩ := h
      obtain ⟨p, q, he, h⟩ := hback s n hm
      cases he
      exact ⟨n, hl, h⟩
    have un : a.Named env.utf8 .unnamed (UnixAddr.makeUnnamed a) := by
      obtain ⟨v, hv, h⟩ := makeUnnamed_run a
      exact ⟨trivial, v, hv, h⟩
    by_cases hq0 : query = []
    · rw [if_pos hq0]
      subst hq0
      by_cases ha : address = []
      · rw [if_pos ha]
        subst ha
        refine .inl (good _ _ un ?_)
        rw [huri]
        rcases hrest with ⟨h, _⟩ | h
        · rw [h]; exact .unnamed hok (.inl rfl)
        · rw [h]; exact .unnamed hok (.inr (.inl rfl))
      · rw [if_neg ha]
        rcases setFile_run env a address with ⟨hl, v, hv, h⟩ | ⟨hn, e, h⟩
        · refine .inl (good _ (.file (squeeze address)) ⟨hl, v, hv, h⟩ ?_)
          rw [huri]
          rcases hrest with ⟨h, _⟩ | h
          · rw [h, ← List.append_nil address]; rw [List.append_nil]
            have := UriMeans.file (q := []) hok ha hno (.inl rfl)
            rwa [List.append_nil] at this
          · rw [h]; exact .file hok ha hno (.inr (.inl rfl))
        · refine .inr ⟨fun hx => ?_, bad _ ⟨e, h⟩⟩
          obtain ⟨n, hl, h | h | h⟩ := means .unnamed hx
          · exact ha h.2.1
          · rw [h.1] at hl; exact hn hl
          · exact nomatch h.2
    rw [if_neg hq0]
    have hrest' : rest = address ++ '?' :: query := by
      rcases hrest with ⟨_, h⟩ | h
      · exact absurd h hq0
      · exact h
    by_cases hq1 : query = "unnamed".toList
    · rw [if_pos hq1]
      by_cases ha : address ≠ []
      · rw [if_pos ha]
        refine .inr ⟨fun hx => ?_, bad _ ⟨_, rfl⟩⟩
        obtain ⟨n, hl, h | h | h⟩ := means .unnamed hx
        · exact ha h.2.1
        · rcases h.2.2 with h | h
          · exact hq0 h
          · rw [hq1] at h; exact absurd h (by decide)
        · rw [hq1] at h; exact absurd h.2 (by decide)
      · rw [if_neg ha]
        refine .inl (good _ _ un ?_)
        rw [huri, hrest', Decidable.not_not.1 ha, hq1]
        exact .unnamed hok (.inr (.inr rfl))
    rw [if_neg hq1]
    by_cases hq2 : query = "file".toList
    · rw [if_pos hq2]
      rcases setFile_run env a address with ⟨hl, v, hv, h⟩ | ⟨hn, e, h⟩
      · refine .inl (good _ (.file (squeeze address)) ⟨hl, v, hv, h⟩ ?_)
        rw [huri, hrest', hq2]
        refine .file hok ?_ hno (.inr (.inr rfl))
        rintro rfl
        exact hl.1.1 rfl
      · refine .inr ⟨fun hx => ?_, bad _ ⟨e, h⟩⟩
        obtain ⟨n, hl, h | h | h⟩ := means .unnamed hx
        · rcases h.2.2 with h | h
          · exact hq0 h
          · exact hq1 h
        · rw [h.1] at hl; exact hn hl
        · rw [hq2] at h; exact absurd h.2 (by decide)
    rw [if_neg hq2]
    by_cases hq3 : query = "abstract".toList
    · rw [if_pos hq3]
      rcases setAbstract_run env hu a address with ⟨hl, v, hv, h⟩ | ⟨hn, e, h⟩
      · refine .inl (good _ (.abstract (squeeze address)) ⟨hl, v, hv, h⟩ ?_)
        rw [huri, hrest', hq3]
        exact .abstract hok hno
      · refine .inr ⟨fun hx => ?_, bad _ ⟨e, h⟩⟩
        obtain ⟨n, hl, h | h | h⟩ := means .unnamed hx
        · rcases h.2.2 with h | h
          · exact hq0 h
          · exact hq1 h
        · rcases h.2.2 with h | h
          · exact hq0 h
          · exact hq2 h
        · rw [h.1] at hl; exact hn hl
    rw [if_neg hq3]
    refine .inr ⟨fun hx => ?_, bad _ ⟨_, rfl⟩⟩
    obtain ⟨n, hl, h | h | h⟩ := means .unnamed hx
    · rcases h.2.2 with h | h
      · exact hq0 h
      · exact hq1 h
    · rcases h.2.2 with h | h
      · exact hq0 h
      · exact hq2 h
    · exact hq3 h.2

theorem cstr_cut {name rest : List Char} (h : '\x00' ∉ name) : cstr (name ++ '\x00' :: rest) = name := by
  unfold cstr
  induction name with
  | nil => rfl
  | cons c s ih =>
    rw [List.mem_cons, not_or] at h
    rw [List.cons_append, List.takeWhile_cons, if_pos (by simpa using fun e => h.1 e.symm), ih h.2]

theorem cstr_cases (l : List Char) : ('\x00' ∉ l ∧ cstr l = l) ∨ ∃ rest, '\x00' ∉ cstr l ∧ l = cstr l ++ '\x00' :: rest := by
  unfold cstr
  induction l with
  | nil => exact .inl ⟨by simp, rfl⟩
  | cons c l ih =>
    by_cases h : c = '\x00'
    · subst h
      exact .inr ⟨l, by simp, by simp⟩
    · rw [List.takeWhile_cons, if_pos (by simpa using h)]
      rcases ih with ⟨h1, h2⟩ | ⟨rest, h1, h2⟩
      · exact .inl ⟨by simp [h1, Ne.symm h], by rw [h2]⟩
      · refine .inr ⟨rest, fun hm => ?_, ?_⟩
        · rcases List.mem_cons.1 hm with hm | hm
          · exact h hm.symm
          · exact h1 hm
        rw [List.cons_append]
        exact congrArg (c :: ·) h2

theorem path_two (v : Vector Char 108) : ∃ rest, v.toList = v[0] :: v[1] :: rest ∧ rest.length = 106 := by
  have hl : v.toList.length = 108 := by simp
  match h : v.toList with
  | [] => rw [h] at hl; cases hl
  | [_] => rw [h] at hl; cases hl
  | x :: y :: rest =>
    obtain ⟨h0, h1⟩ := get_of_toList h
    rw [h] at hl
    exact ⟨rest, by rw [h0, h1], by simpa using hl⟩

/-- The bytes stand for one name at most. -/
theorem pathMeans_unique {l : List Char} {n n' : UnixName} (h : PathMeans l n) (h' : PathMeans l n') : n = n' := by
  have first {name rest : List Char} (hn : name ≠ []) (h0 : '\x00' ∉ name) : (name ++ '\x00' :: rest).head? ≠ some '\x00' := by
    cases name with
    | nil => exact absurd rfl hn
    | cons c s =>
      rw [List.cons_append, List.head?_cons]
      intro hc
      cases hc
      exact h0 List.mem_cons_self
  cases h with
  | unnamed =>
    generalize hl : '\x00' :: '\x00' :: _ = l at h'
    cases h' with
    | unnamed => rfl
    | file hn h0 => exact absurd (by rw [← hl]; rfl) (first hn h0)
    | abstract hn h0 => exact absurd (by rw [← (List.cons.inj hl).2]; rfl) (first hn h0)
  | file hn h0 =>
    generalize hl : _ ++ '\x00' :: _ = l at h'
    cases h' with
    | unnamed => exact absurd (by rw [hl]; rfl) (first hn h0)
    | file hn' h0' =>
      have := congrArg cstr hl
      rw [cstr_cut h0, cstr_cut h0'] at this
      rw [this]
    | abstract hn' h0' => exact absurd (by rw [hl]; rfl) (first hn h0)
  | abstract hn h0 =>
    generalize hl : '\x00' :: (_ ++ '\x00' :: _) = l at h'
    cases h' with
    | unnamed => exact absurd (by rw [(List.cons.inj hl).2]; rfl) (first hn h0)
    | file hn' h0' => exact absurd (by rw [← hl]; rfl) (first hn' h0')
    | abstract hn' h0' =>
      have := congrArg cstr (List.cons.inj hl).2
      rw [cstr_cut h0, cstr_cut h0'] at this
      rw [this]

/-- `set_un()`: the bytes stand for a legal name, which is set, or it throws. -/
theorem setUn_means {env : UnixEnv} (hu : Utf8Ascii env.utf8) (a : UnixAddr) (un : SockaddrUn) :
    (∃ n, un.family = AF_UNIX ∧ PathMeans un.path.toList n ∧ a.Named env.utf8 n (UnixAddr.setUn env un a))
      ∨ ((¬ ∃ n, un.family = AF_UNIX ∧ PathMeans un.path.toList n ∧ n.Legal env.utf8) ∧ ∃ e, UnixAddr.setUn env un a = (a, .throw e)) := by
  unfold UnixAddr.setUn
  dsimp only
  by_cases h1 : un.family ≠ AF_UNIX
  · rw [if_pos h1]
    exact .inr ⟨fun ⟨_, h, _⟩ => h1 h, _, rfl⟩
  rw [if_neg h1]
  have hf := Decidable.not_not.1 h1
  obtain ⟨rest, hp, hlen⟩ := path_two un.path
  have hl108 : un.path.toList.length = 108 := by simp
  by_cases h2 : un.path[0] ≠ '\x00'
  · rw [if_pos h2]
    have only (n : UnixName) (hm : PathMeans un.path.toList n) : n = .file (squeeze (cstr un.path.toList)) ∧ (cstr un.path.toList).length ≠ 108 := by
      generalize hgen : un.path.toList = l at hm
      cases hm with
      | unnamed => rw [hp] at hgen; exact absurd (List.cons.inj hgen).1 h2
      | file hn h0 =>
        rw [cstr_cut h0]
        refine ⟨rfl, fun he => ?_⟩
        rw [hgen] at hl108
        simp only [List.length_append, List.length_cons] at hl108
        omega
      | abstract hn h0 => rw [hp] at hgen; exact absurd (List.cons.inj hgen).1 h2
    by_cases h3 : (cstr un.path.toList).length = 108
    · rw [if_pos h3]
      exact .inr ⟨fun ⟨n, _, hm, _⟩ => (only n hm).2 h3, _, rfl⟩
    · rw [if_neg h3]
      rcases setFile_run env a (cstr un.path.toList) with ⟨hl, v, hv, h⟩ | ⟨hn, e, h⟩
      · refine .inl ⟨.file (squeeze (cstr un.path.toList)), hf, ?_, hl, v, hv, h⟩
        rcases cstr_cases un.path.toList with ⟨_, h⟩ | ⟨r, h0, hr⟩
        · exact absurd (by rw [h]; exact hl108) h3
        · generalize hname : cstr un.path.toList = name at h0 hr
          rw [hr]
          refine .file ?_ h0
          rintro rfl
          rw [hp] at hr
          exact h2 (List.cons.inj hr).1
      · refine .inr ⟨fun ⟨n, _, hm, hl⟩ => ?_, e, h⟩
        rw [(only n hm).1] at hl
        exact hn hl
  rw [if_neg h2]
  have h2' := Decidable.not_not.1 h2
  rw [h2'] at hp
  by_cases h4 : un.path[1] ≠ '\x00'
  · rw [if_pos h4]
    have hd : un.path.toList.drop 1 = un.path[1] :: rest := by rw [hp]; rfl
    have hl107 : (un.path.toList.drop 1).length = 107 := by rw [List.length_drop, hl108]
    have hcons : un.path.toList = '\x00' :: un.path.toList.drop 1 := by rw [hd]; exact hp
    have only (n : UnixName) (hm : PathMeans un.path.toList n) :
        n = .abstract (squeeze (cstr (un.path.toList.drop 1))) ∧ (cstr (un.path.toList.drop 1)).length ≠ 108 - 1 := by
      rw [hcons] at hm
      generalize un.path.toList.drop 1 = l at hm hd hl107
      generalize hgen : '\x00' :: l = l' at hm
      cases hm with
      | unnamed => cases hgen; exact absurd (List.cons.inj hd).1.symm h4
      | @file name r hn h0 =>
        cases name with
        | nil => exact absurd rfl hn
        | cons c name =>
          rw [List.cons_append] at hgen
          cases hgen
          simp at h0
      | abstract hn h0 =>
        cases hgen
        rw [cstr_cut h0]
        refine ⟨rfl, fun he => ?_⟩
        simp only [List.length_append, List.length_cons] at hl107
        omega
    by_cases h3 : (cstr (un.path.toList.drop 1)).length = 108 - 1
    · rw [if_pos h3]
      exact .inr ⟨fun ⟨n, _, hm, _⟩ => (only n hm).2 h3, _, rfl⟩
    · rw [if_neg h3]
      rcases setAbstract_run env hu a (cstr (un.path.toList.drop 1)) with ⟨hl, v, hv, h⟩ | ⟨hn, e, h⟩
      · refine .inl ⟨.abstract (squeeze (cstr (un.path.toList.drop 1))), hf, ?_, hl, v, hv, h⟩
        rcases cstr_cases (un.path.toList.drop 1) with ⟨_, h⟩ | ⟨r, h0, hr⟩
        · exact absurd (by rw [h]; exact hl107) h3
        · rw [hcons]
          rw [show List.drop 1 ('\x00' :: List.drop 1 un.path.toList) = List.drop 1 un.path.toList from rfl]
          generalize hname : cstr (un.path.toList.drop 1) = name at h0 hr
          rw [hr]
          refine .abstract ?_ h0
          rintro rfl
          rw [hd] at hr
          exact h4 (List.cons.inj hr).1
      · refine .inr ⟨fun ⟨n, _, hm, hl⟩ => ?_, e, h⟩
        rw [(only n hm).1] at hl
        exact hn hl
  · rw [if_neg h4]
    obtain ⟨v, hv, h⟩ := makeUnnamed_run a
    refine .inl ⟨.unnamed, hf, ?_, trivial, v, hv, h⟩
    rw [hp, Decidable.not_not.1 h4]
    exact .unnamed

theorem clearTail_path (un : SockaddrUn) (length : Nat) : (UnixAddr.clearTail un length).path.toList = within length un.path.toList := by
  have h1 : (UnixAddr.clearTail un length).path.toList.length = 108 := by simp
  have h2 : un.path.toList.length = 108 := by simp
  unfold within
  apply List.ext_getElem
  · rw [h1, List.length_append, List.length_take, List.length_replicate, h2]; omega
  · intro i hi hi'
    rw [h1] at hi
    have := clearTail_get un length i hi
    rw [Vector.getElem_toList, this]
    by_cases h : i + 2 < length
    · rw [if_pos h, List.getElem_append_left (by rw [List.length_take, h2]; omega), List.getElem_take, Vector.getElem_toList]
    · rw [if_neg h, List.getElem_append_right (by rw [List.length_take, h2]; omega), List.getElem_replicate]

theorem within_whole {length : Nat} {l : List Char} (h : l.length + 2 ≤ length) : within length l = l := by
  unfold within
  rw [List.take_of_length_le (by omega), Nat.sub_eq_zero_of_le (by omega)]
  simp

/-- A name is determined by what is shown. -/
theorem shows_same {b : UnixAddr} {n n' : UnixName} (h : b.Shows n) (h' : b.Shows n') : n = n' := by
  by_cases h1 : b.isUnnamed = true
  · rw [h.isUnnamed.1 h1, h'.isUnnamed.1 h1]
  · have ht : n.text = n'.text := Res.ok.inj (h.text.symm.trans h'.text)
    by_cases h2 : b.isFile = true
    · rw [h.isFile.1 h2, h'.isFile.1 h2, ht]
    · cases n with
      | unnamed => exact absurd (h.isUnnamed.2 rfl) h1
      | file n => exact absurd (h.isFile.2 rfl) h2
      | abstract n => rw [h'.isAbstract.1 (h.isAbstract.2 rfl), ← ht]; rfl

/-- C125: what each call does to what a user sees, whatever was called before: either it can be done and it is done, or it throws (or, asked
about a socket, it may return `false`) and nothing changes. -/
theorem C125_call {env : UnixEnv} (hu : Utf8Ascii env.utf8) {a : UnixAddr} (ha : UnixReachable env a) {v : UnixView} (hv : a.Looks v)
    (op : UnixOp) :
    (∀ v', UnixDoes env.utf8 op v v' → (op.run env a).2 = .ok () ∧ (op.run env a).1.Looks v')
      ∧ ((¬ ∃ v', UnixDoes env.utf8 op v v') → (op.run env a).1 = a
        ∧ ((∃ e, (op.run env a).2 = .throw e) ∨ ∃ n, op = .setFromSocket n ∧ UnixAddr.setFromSocket env n a = (a, .ok false))) := by
  have hg := (good_reachable hu ha).1
  have named {r : UnixAddr × Res Unit} {n : UnixName} (h : a.Named env.utf8 n r) : r.2 = .ok () ∧ r.1.Looks { v with name := n } := by
    obtain ⟨hl, w, hw, rfl⟩ := h
    exact ⟨rfl, hv.scheme, shows_of hu hl hg hw, hv.mode, hv.group⟩
  cases op with
  | setScheme s =>
    refine ⟨fun v' h => ?_, fun h => absurd ⟨_, .setScheme⟩ h⟩
    cases h
    refine ⟨rfl, ?_, ⟨hv.name.family, hv.name.path, hv.name.isUnnamed, hv.name.isFile, hv.name.isAbstract, hv.name.text, hv.name.unlink⟩,
      hv.mode, hv.group⟩
    show UnixAddr.getScheme { a with scheme := keptScheme s } = if s = [] then "unix".toList else s
    by_cases h : s = []
    · subst h; rfl
    · rw [if_neg h]; exact getScheme_kept a h
  | setMode m =>
    refine ⟨fun v' h => ?_, fun h => absurd ⟨_, .setMode⟩ h⟩
    cases h
    exact ⟨rfl, hv.scheme, ⟨hv.name.family, hv.name.path, hv.name.isUnnamed, hv.name.isFile, hv.name.isAbstract, hv.name.text, hv.name.unlink⟩,
      rfl, hv.group⟩
  | setGroup g =>
    refine ⟨fun v' h => ?_, fun h => absurd ⟨_, .setGroup⟩ h⟩
    cases h
    exact ⟨rfl, hv.scheme, ⟨hv.name.family, hv.name.path, hv.name.isUnnamed, hv.name.isFile, hv.name.isAbstract, hv.name.text, hv.name.unlink⟩,
      hv.mode, rfl⟩
  | makeUnnamed =>
    refine ⟨fun v' h => ?_, fun h => absurd ⟨_, .makeUnnamed⟩ h⟩
    cases h
    obtain ⟨w, hw, h⟩ := makeUnnamed_run a
    exact named ⟨trivial, w, hw, h⟩
  | setFile s =>
    rcases setFile_run env a s with ⟨hl, w, hw, h⟩ | ⟨hn, e, h⟩
    · refine ⟨fun v' hd => ?_, fun hd => absurd ⟨_, .setFile hl⟩ hd⟩
      cases hd
      exact named (n := .file (squeeze s)) ⟨hl, w, hw, h⟩
    · have h' : (UnixOp.setFile s).run env a = (a, .throw e) := h
      refine ⟨fun v' hd => ?_, fun _ => by rw [h']; exact ⟨rfl, .inl ⟨e, rfl⟩⟩⟩
      cases hd with
      | setFile hl => exact absurd hl hn
  | setAbstract s =>
    rcases setAbstract_run env hu a s with ⟨hl, w, hw, h⟩ | ⟨hn, e, h⟩
    · refine ⟨fun v' hd => ?_, fun hd => absurd ⟨_, .setAbstract hl⟩ hd⟩
      cases hd
      exact named (n := .abstract (squeeze s)) ⟨hl, w, hw, h⟩
    · have h' : (UnixOp.setAbstract s).run env a = (a, .throw e) := h
      refine ⟨fun v' hd => ?_, fun _ => by rw [h']; exact ⟨rfl, .inl ⟨e, rfl⟩⟩⟩
      cases hd with
      | setAbstract hl => exact absurd hl hn
  | setUri uri =>
    rcases setUri_means hu a uri with ⟨s, n, w, hm, hl, hw, hs, h⟩ | ⟨hn, e, h⟩
    · have h' : (UnixOp.setUri uri).run env a = _ := h
      refine ⟨fun v' hd => ?_, fun hd => absurd ⟨_, .setUri hm hl⟩ hd⟩
      cases hd with
      | @setUri _ s' n' _ hm' hl' =>
        have e1 : s' = s ∧ n' = n := by
          obtain ⟨c, hc⟩ : ∃ c, Parser.splitFirst ':' uri = some c := by
            cases hx : Parser.splitFirst ':' uri with
            | some c => exact ⟨c, rfl⟩
            | none =>
              unfold UnixAddr.setUri at h
              rw [hx] at h
              exact nomatch congrArg Prod.snd h
          obtain ⟨hs1, -, p, q, hc1, hn1⟩ := uri_cut (rest := c.2) (scheme := c.1) hc hm
          obtain ⟨hs2, -, p2, q2, hc2, hn2⟩ := uri_cut (rest := c.2) (scheme := c.1) hc hm'
          rw [hc1] at hc2
          cases hc2
          refine ⟨hs2.trans hs1.symm, ?_⟩
          have hx1 : "unnamed".toList ≠ "file".toList := by decide
          have hx2 : "unnamed".toList ≠ "abstract".toList := by decide
          have hx3 : "file".toList ≠ "abstract".toList := by decide
          have hx4 : ([] : Str) ≠ "abstract".toList := by decide
          rcases hn1 with ⟨r1, r2, r3⟩ | ⟨r1, r2, r3⟩ | ⟨r1, r3⟩ <;> rcases hn2 with ⟨t1, t2, t3⟩ | ⟨t1, t2, t3⟩ | ⟨t1, t3⟩ <;>
            first
            | exact t1.trans r1.symm
            | exact absurd (by assumption) t2
            | exact absurd (by assumption) r2
            | (subst t3; rcases r3 with r3 | r3 <;> first | exact absurd r3.symm hx4 | exact absurd r3.symm hx2 | exact absurd r3.symm hx3)
            | (subst r3; rcases t3 with t3 | t3 <;> first | exact absurd t3.symm hx4 | exact absurd t3.symm hx2 | exact absurd t3.symm hx3)
        obtain ⟨rfl, rfl⟩ := e1
        rw [h']
        exact ⟨rfl, getScheme_kept _ hs, shows_of (a := { a.withPath w with scheme := keptScheme s' }) hu hl hg hw, hv.mode, hv.group⟩
    · have h' : (UnixOp.setUri uri).run env a = (a, .throw e) := h
      refine ⟨fun v' hd => ?_, fun _ => by rw [h']; exact ⟨rfl, .inl ⟨e, rfl⟩⟩⟩
      cases hd with
      | setUri hm hl => exact absurd ⟨_, _, hm, hl⟩ hn
  | setUn un =>
    rcases setUn_means hu a un with ⟨n, hf, hm, hn⟩ | ⟨hn, e, h⟩
    · refine ⟨fun v' hd => ?_, fun hd => absurd ⟨_, .setUn hf hm hn.1⟩ hd⟩
      cases hd with
      | @setUn _ n' _ _ hm' _ =>
        rw [pathMeans_unique hm' hm]
        exact named hn
    · have h' : (UnixOp.setUn un).run env a = (a, .throw e) := h
      refine ⟨fun v' hd => ?_, fun _ => by rw [h']; exact ⟨rfl, .inl ⟨e, rfl⟩⟩⟩
      cases hd with
      | setUn hf hm hl => exact absurd ⟨_, hf, hm, hl⟩ hn
  | setFromSocket nm =>
    cases nm with
    | fails => exact ⟨fun v' hd => (nomatch hd), fun _ => ⟨rfl, .inr ⟨_, rfl, rfl⟩⟩⟩
    | gives un length =>
      by_cases hf : un.family ≠ AF_UNIX
      · have h : UnixAddr.setFromSocket env (.gives un length) a = (a, .ok false) := if_pos hf
        refine ⟨fun v' hd => ?_, fun _ => ⟨?_, .inr ⟨_, rfl, h⟩⟩⟩
        · cases hd with
          | setFromSocket hf' => exact absurd hf' hf
        · show (SM.bind (UnixAddr.setFromSocket env (.gives un length)) (fun _ => SM.pure ()) a).1 = a
          unfold SM.bind
          rw [h]
          rfl
      · have hf' := Decidable.not_not.1 hf
        have h : UnixAddr.setFromSocket env (.gives un length) a =
            SM.bind (UnixAddr.setUn env (if length < 110 then UnixAddr.clearTail un length else un)) (fun _ => SM.pure true) a := if_neg hf
        have hpath : (if length < 110 then UnixAddr.clearTail un length else un).path.toList = within length un.path.toList := by
          by_cases hlen : length < 110
          · rw [if_pos hlen]; exact clearTail_path un length
          · rw [if_neg hlen]
            exact (within_whole (by simp; omega)).symm
        have hfam : (if length < 110 then UnixAddr.clearTail un length else un).family = AF_UNIX ↔ 0 < length := by
          by_cases hlen : length < 110
          · rw [if_pos hlen]
            by_cases h2 : 2 ≤ length
            · rw [clearTail_family un length h2]; exact ⟨fun _ => by omega, fun _ => hf'⟩
            · unfold UnixAddr.clearTail
              dsimp only
              rw [hf']
              rcases (by omega : length = 0 ∨ length = 1) with rfl | rfl <;> decide
          · rw [if_neg hlen]
            exact ⟨fun _ => by omega, fun _ => hf'⟩
        generalize (if length < 110 then UnixAddr.clearTail un length else un) = un' at h hpath hfam
        have hrun : (UnixOp.setFromSocket (.gives un length)).run env a =
            SM.bind (SM.bind (UnixAddr.setUn env un') (fun _ => SM.pure true)) (fun _ => SM.pure ()) a := by
          show SM.bind _ _ a = SM.bind _ _ a
          unfold SM.bind
          unfold SM.bind at h
          rw [h]
        rcases setUn_means hu a un' with ⟨n, hf2, hm, hn⟩ | ⟨hn, e, he⟩
        · have hr : (UnixOp.setFromSocket (.gives un length)).run env a = UnixAddr.setUn env un' a := by
            rw [hrun]
            obtain ⟨_, w, _, hx⟩ := hn
            unfold SM.bind
            rw [hx]
            rfl
          rw [hpath] at hm
          refine ⟨fun v' hd => ?_, fun hd => absurd ⟨_, .setFromSocket hf' (hfam.1 hf2) hm hn.1⟩ hd⟩
          cases hd with
          | setFromSocket _ _ hm' _ =>
            rw [pathMeans_unique hm' hm, hr]
            exact named hn
        · have hr : (UnixOp.setFromSocket (.gives un length)).run env a = (a, .throw e) := by
            rw [hrun]
            unfold SM.bind
            rw [he]
          refine ⟨fun v' hd => ?_, fun _ => by rw [hr]; exact ⟨rfl, .inl ⟨e, rfl⟩⟩⟩
          cases hd with
          | setFromSocket _ hl2 hm hl =>
            rw [← hpath] at hm
            exact absurd ⟨_, hfam.2 hl2, hm, hl⟩ hn

/-- C125: every address which a program can hold is seen in one way, its name being legal. -/
theorem C125_seen {env : UnixEnv} (hu : Utf8Ascii env.utf8) {a : UnixAddr} (ha : UnixReachable env a) :
    ∃ v : UnixView, a.Looks v ∧ v.name.Legal env.utf8 ∧ ∀ v', a.Looks v' → v' = v := by
  obtain ⟨n, hl, hs⟩ := C47_unix_state hu ha
  refine ⟨⟨a.getScheme, n, a.mode, a.group⟩, ⟨rfl, hs, rfl, rfl⟩, hl, fun v' h => ?_⟩
  obtain ⟨s', n', m', g'⟩ := v'
  obtain ⟨h1, h2, h3, h4⟩ := h
  dsimp only at h1 h2 h3 h4
  subst h1 h3 h4
  rw [shows_same h2 hs]

/-- C125: what a user sees after any calls is what these calls do, one after the other. -/
theorem C125_history {env : UnixEnv} (hu : Utf8Ascii env.utf8) (ops : List UnixOp) {a : UnixAddr} (ha : UnixReachable env a) {v : UnixView}
    (hv : a.Looks v) : ∃ v', UnixDoesAll env.utf8 ops v v' ∧ (UnixOp.runAll env ops a).Looks v' := by
  induction ops generalizing a v with
  | nil => exact ⟨v, .nil, hv⟩
  | cons op ops ih =>
    obtain ⟨h1, h2⟩ := C125_call hu ha hv op
    by_cases h : ∃ v', UnixDoes env.utf8 op v v'
    · obtain ⟨v', hd⟩ := h
      obtain ⟨v'', t, hl⟩ := ih (.call op ha) (h1 v' hd).2
      exact ⟨v'', .does hd t, hl⟩
    · have he := (h2 h).1
      obtain ⟨v'', t, hl⟩ := ih (.call op ha) (a := (op.run env a).1) (v := v) (by rw [he]; exact hv)
      exact ⟨v'', .refuses h t, hl⟩

/-- C125: and there is one such result, so that two addresses seen in the same way are still seen in the same way after the same calls. -/
theorem C125_same {env : UnixEnv} (hu : Utf8Ascii env.utf8) (ops : List UnixOp) {a b : UnixAddr} (ha : UnixReachable env a)
    (hb : UnixReachable env b) {v : UnixView} (hv : a.Looks v) (hw : b.Looks v) :
    ∃ v', (UnixOp.runAll env ops a).Looks v' ∧ (UnixOp.runAll env ops b).Looks v' := by
  induction ops generalizing a b v with
  | nil => exact ⟨v, hv, hw⟩
  | cons op ops ih =>
    obtain ⟨h1, h2⟩ := C125_call hu ha hv op
    obtain ⟨k1, k2⟩ := C125_call hu hb hw op
    by_cases h : ∃ v', UnixDoes env.utf8 op v v'
    · obtain ⟨v', hd⟩ := h
      exact ih (.call op ha) (.call op hb) (h1 v' hd).2 (k1 v' hd).2
    · exact ih (.call op ha) (.call op hb) (v := v) (by rw [(h2 h).1]; exact hv) (by rw [(k2 h).1]; exact hw)

/-- The call is not meant to change the mode. -/
def UnixOp.keepsMode : UnixOp → Bool
  | .setMode _ => false
  | _ => true

/-- The call is not meant to change the group. -/
def UnixOp.keepsGroup : UnixOp → Bool
  | .setGroup _ => false
  | _ => true

/-- The call is not meant to change the scheme. -/
def UnixOp.keepsScheme : UnixOp → Bool
  | .setScheme _ | .setUri _ => false
  | _ => true

/-- The call is not meant to change the name. -/
def UnixOp.keepsName : UnixOp → Bool
  | .setScheme _ | .setMode _ | .setGroup _ => true
  | _ => false

theorem does_keeps {utf8 : Str → Option (List Nat)} {op : UnixOp} {v v' : UnixView} (h : UnixDoes utf8 op v v') :
    (op.keepsMode = true → v'.mode = v.mode) ∧ (op.keepsGroup = true → v'.group = v.group)
      ∧ (op.keepsScheme = true → v'.scheme = v.scheme) ∧ (op.keepsName = true → v'.name = v.name) := by
  cases h <;> refine ⟨fun h => ?_, fun h => ?_, fun h => ?_, fun h => ?_⟩ <;> first | rfl | exact nomatch h

/-- C125: after any history, the mode, the group, the scheme and the name are still those seen before the last calls which are not meant to change
them; the mode and the group are those of the last call which set them. -/
theorem C125_kept {env : UnixEnv} (hu : Utf8Ascii env.utf8) (ops : List UnixOp) {a : UnixAddr} (ha : UnixReachable env a) {v : UnixView}
    (hv : a.Looks v) : ∃ v', (UnixOp.runAll env ops a).Looks v'
      ∧ ((∀ op ∈ ops, op.keepsMode = true) → v'.mode = v.mode) ∧ ((∀ op ∈ ops, op.keepsGroup = true) → v'.group = v.group)
      ∧ ((∀ op ∈ ops, op.keepsScheme = true) → v'.scheme = v.scheme) ∧ ((∀ op ∈ ops, op.keepsName = true) → v'.name = v.name) := by
  obtain ⟨v', hd, hl⟩ := C125_history hu ops ha hv
  refine ⟨v', hl, ?_⟩
  clear hl hv ha
  induction hd with
  | nil => exact ⟨fun _ => rfl, fun _ => rfl, fun _ => rfl, fun _ => rfl⟩
  | does h t ih =>
    obtain ⟨k1, k2, k3, k4⟩ := does_keeps h
    obtain ⟨i1, i2, i3, i4⟩ := ih
    have tl {p : UnixOp → Prop} {op : UnixOp} {ops : List UnixOp} (h : ∀ o ∈ op :: ops, p o) : ∀ o ∈ ops, p o :=
      fun o ho => h o (List.mem_cons_of_mem _ ho)
    exact ⟨fun h => (i1 (tl h)).trans (k1 (h _ List.mem_cons_self)), fun h => (i2 (tl h)).trans (k2 (h _ List.mem_cons_self)),
      fun h => (i3 (tl h)).trans (k3 (h _ List.mem_cons_self)), fun h => (i4 (tl h)).trans (k4 (h _ List.mem_cons_self))⟩
  | refuses h t ih =>
    obtain ⟨i1, i2, i3, i4⟩ := ih
    have tl {p : UnixOp → Prop} {op : UnixOp} {ops : List UnixOp} (h : ∀ o ∈ op :: ops, p o) : ∀ o ∈ ops, p o :=
      fun o ho => h o (List.mem_cons_of_mem _ ho)
    exact ⟨fun h => i1 (tl h), fun h => i2 (tl h), fun h => i3 (tl h), fun h => i4 (tl h)⟩

/-! ### Examples -/

/-- The URI of a file, with and without its query. -/
example : UriMeans "cd:/run//cd.sock?file".toList "cd".toList (.file "/run/cd.sock".toList) ∧
    UriMeans "cd:///run/cd.sock".toList "cd".toList (.file "/run/cd.sock".toList) :=
  ⟨.file (s := "cd".toList) (p := "/run//cd.sock".toList) (q := "?file".toList) ⟨'c', ['d'], rfl, by decide, by decide⟩ (by decide) (by decide)
      (.inr (.inr rfl)),
    .file (s := "cd".toList) (p := "///run/cd.sock".toList) (q := []) ⟨'c', ['d'], rfl, by decide, by decide⟩ (by decide) (by decide) (.inl rfl)⟩

/-- Bytes after the first NUL do not count. -/
example : PathMeans "/a\x00bc".toList (.file "/a".toList) ∧ PathMeans "\x00a/\x00b".toList (.abstract "a".toList) ∧
    PathMeans "\x00\x00b".toList .unnamed :=
  ⟨.file (name := "/a".toList) (rest := "bc".toList) (by decide) (by decide), .abstract (name := "a/".toList) (rest := "b".toList) (by decide)
    (by decide), .unnamed⟩

/-- A new address, and what it is after a few calls, one of which is refused. -/
example : UnixAddr.create.Looks ⟨"unix".toList, .unnamed, 0o600, []⟩ ∧
    (UnixOp.runAll asciiEnv [.setMode 0o660, .setUri "cd:/run/x".toList, .setFile "/".toList, .setGroup "web".toList] UnixAddr.create).toUri
      = .ok "cd:///run/x".toList :=
  ⟨⟨rfl, (C47_constructed asciiEnv_ascii).1, rfl, rfl⟩, by decide +kernel⟩

example : ∃ v', (UnixOp.runAll asciiEnv [.setUri "cd:/run/x".toList, .setFile "/".toList] UnixAddr.create).Looks v' ∧ v'.mode = 0o600 := by
  obtain ⟨v', h, hm, -⟩ := C125_kept asciiEnv_ascii [.setUri "cd:/run/x".toList, .setFile "/".toList] .create
    (v := ⟨"unix".toList, .unnamed, 0o600, []⟩) ⟨rfl, (C47_constructed asciiEnv_ascii).1, rfl, rfl⟩
  exact ⟨v', h, hm (by simp [UnixOp.keepsMode])⟩

end Verif
