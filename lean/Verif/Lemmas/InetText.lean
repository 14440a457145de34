import Verif.Model.InetText
import Verif.Lemmas.Value

/-!
# Lemmas about the text form of addresses
-/

namespace Verif.Inet

theorem numStrLoop_fuel (b : Nat) (hb : 2 ≤ b) : ∀ (f g n : Nat), n < f → n < g → numStrLoop b f n = numStrLoop b g n
  | 0, _, _, h, _ => by omega
  | _, 0, _, _, h => by omega
  | f + 1, g + 1, n, hf, hg => by
    rw [numStrLoop, numStrLoop]
    split
    · rfl
    · rename_i h
      have : n / b < n := Nat.div_lt_self (by omega) (by omega)
      rw [numStrLoop_fuel b hb f g (n / b) (by omega) (by omega)]

theorem numStr_small {b n : Nat} (h : n < b) : numStr b n = [digitChar n] := by
  rw [numStr, numStrLoop, if_pos h]

theorem numStr_step {b n : Nat} (hb : 2 ≤ b) (h : b ≤ n) : numStr b n = numStr b (n / b) ++ [digitChar (n % b)] := by
  have : n / b < n := Nat.div_lt_self (by omega) (by omega)
  rw [numStr, numStrLoop, if_neg (by omega), numStrLoop_fuel b hb n (n / b + 1) (n / b) (by omega) (by omega)]
  rfl

theorem hexVal_digit : ∀ n : Nat, n < 16 → hexVal (digitChar n) = some n := by decide

theorem decVal_digit : ∀ n : Nat, n < 10 → decVal (digitChar n) = some n := by decide

theorem hexVal_colon : hexVal ':' = none := by decide
theorem hexVal_dot : hexVal '.' = none := by decide
theorem decVal_dot : decVal '.' = none := by decide

theorem ofNat_toNat (b : Byte) : BitVec.ofNat 8 b.toNat = b := by simp

/-! ## `inet_pton4()` -/

theorem pton4_digit {src : Str} {done : List Byte} {cur d octets : Nat} {saw : Bool} (hd : d < 10)
    (h0 : ¬ (saw = true ∧ cur = 0)) (h1 : cur * 10 + d ≤ 255) (h2 : octets + (if saw then 0 else 1) ≤ 4) :
    pton4Loop (digitChar d :: src) done cur saw octets
      = pton4Loop src done (cur * 10 + d) true (octets + if saw then 0 else 1) := by
  rw [pton4Loop, decVal_digit d hd]
  simp only
  rw [if_neg h0, if_neg (by omega)]
  cases saw
  · simp only [Bool.not_false, ↓reduceIte, Bool.false_eq_true] at *
    rw [if_neg (by omega)]
  · simp

theorem pton4_octet {src : Str} {done : List Byte} {octets n : Nat} (hn : n ≤ 255) (h : octets < 4) :
    pton4Loop (decStr n ++ src) done 0 false octets = pton4Loop src done n true (octets + 1) := by
  unfold decStr
  rcases Nat.lt_or_ge n 10 with h1 | h1
  · rw [numStr_small h1]
    have := pton4_digit (src := src) (done := done) (cur := 0) (saw := false) (octets := octets) h1 (by simp) (by omega)
      (by simp; omega)
    simpa using this
  · rw [numStr_step (by omega) h1]
    rcases Nat.lt_or_ge (n / 10) 10 with h2 | h2
    · rw [numStr_small h2]
      simp only [List.cons_append, List.nil_append]
      rw [pton4_digit h2 (by simp) (by omega) (by simp; omega)]
      rw [pton4_digit (Nat.mod_lt _ (by omega)) (by simp; omega) (by omega) (by simp; omega)]
      simp only [Bool.false_eq_true, ↓reduceIte, Nat.zero_mul, Nat.zero_add]
      congr 1; omega
    · rw [numStr_step (by omega) h2, numStr_small (by omega : n / 10 / 10 < 10)]
      simp only [List.cons_append, List.nil_append]
      rw [pton4_digit (by omega) (by simp) (by omega) (by simp; omega)]
      rw [pton4_digit (Nat.mod_lt _ (by omega)) (by simp; omega) (by omega) (by simp; omega)]
      rw [pton4_digit (Nat.mod_lt _ (by omega)) (by simp; omega) (by omega) (by simp; omega)]
      simp only [Bool.false_eq_true, ↓reduceIte, Nat.zero_mul, Nat.zero_add]
      congr 1; omega

theorem pton4_dot {src : Str} {done : List Byte} {cur octets : Nat} (h : octets ≠ 4) :
    pton4Loop ('.' :: src) done cur true octets = pton4Loop src (done ++ [BitVec.ofNat 8 cur]) 0 false octets := by
  rw [pton4Loop, decVal_dot]
  simp [h]

theorem byte_le (b : Byte) : b.toNat ≤ 255 := by have := b.isLt; omega

theorem pton4_ntop4 (a : Bytes4) : pton4 (ntop4 a) = some a := by
  have : pton4Loop (ntop4 a) [] 0 false 0 = some [a[0], a[1], a[2], a[3]] := by
    unfold ntop4
    simp only [List.append_assoc, List.cons_append]
    rw [pton4_octet (byte_le _) (by omega), pton4_dot (by omega)]
    rw [pton4_octet (byte_le _) (by omega), pton4_dot (by omega)]
    rw [pton4_octet (byte_le _) (by omega), pton4_dot (by omega)]
    have := pton4_octet (src := []) (done := [a[0], a[1], a[2]]) (octets := 3) (byte_le a[3]) (by omega)
    simp only [List.append_nil] at this
    simp only [ofNat_toNat, List.nil_append, List.cons_append]
    rw [this]
    simp [pton4Loop]
  rw [pton4, this]
  simp only [Option.some.injEq]
  ext i hi
  have : i = 0 ∨ i = 1 ∨ i = 2 ∨ i = 3 := by omega
  rcases this with rfl | rfl | rfl | rfl <;> rfl

/-! ## `inet_pton6()` -/

theorem pton6_digit {src cur : Str} {out : List Byte} {colon : Option Nat} {x v d : Nat} (hd : d < 16) (hx : x ≠ 4)
    (hv : v * 16 + d ≤ 0xFFFF) :
    pton6Loop (digitChar d :: src) out colon cur x v = pton6Loop src out colon cur (x + 1) (v * 16 + d) := by
  rw [pton6Loop, hexVal_digit d hd]
  simp only
  rw [if_neg hx, if_neg (by omega)]

/-- A printed group is read as its value, with at least one digit. -/
theorem pton6_group {src cur : Str} {out : List Byte} {colon : Option Nat} {w : Nat} (hw : w < 65536) :
    ∃ x, 0 < x ∧ pton6Loop (hexStr w ++ src) out colon cur 0 0 = pton6Loop src out colon cur x w := by
  unfold hexStr
  rcases Nat.lt_or_ge w 16 with h1 | h1
  · refine ⟨1, by omega, ?_⟩
    rw [numStr_small h1]
    simp only [List.cons_append, List.nil_append]
    rw [pton6_digit h1 (by omega) (by omega)]
    simp
  · rw [numStr_step (by omega) h1]
    rcases Nat.lt_or_ge (w / 16) 16 with h2 | h2
    · refine ⟨2, by omega, ?_⟩
      rw [numStr_small h2]
      simp only [List.cons_append, List.nil_append]
      rw [pton6_digit h2 (by omega) (by omega), pton6_digit (Nat.mod_lt _ (by omega)) (by omega) (by omega)]
      congr 1; omega
    · rw [numStr_step (by omega) h2]
      rcases Nat.lt_or_ge (w / 16 / 16) 16 with h3 | h3
      · refine ⟨3, by omega, ?_⟩
        rw [numStr_small h3]
        simp only [List.cons_append, List.nil_append]
        rw [pton6_digit h3 (by omega) (by omega), pton6_digit (Nat.mod_lt _ (by omega)) (by omega) (by omega),
          pton6_digit (Nat.mod_lt _ (by omega)) (by omega) (by omega)]
        congr 1; omega
      · refine ⟨4, by omega, ?_⟩
        rw [numStr_step (by omega) h3, numStr_small (by omega : w / 16 / 16 / 16 < 16)]
        simp only [List.cons_append, List.nil_append]
        rw [pton6_digit (by omega) (by omega) (by omega), pton6_digit (Nat.mod_lt _ (by omega)) (by omega) (by omega),
          pton6_digit (Nat.mod_lt _ (by omega)) (by omega) (by omega), pton6_digit (Nat.mod_lt _ (by omega)) (by omega) (by omega)]
        congr 1; omega

theorem pton6_sep {src cur : Str} {out : List Byte} {colon : Option Nat} {x v : Nat} (hx : 0 < x) (hs : src ≠ [])
    (ho : out.length + 2 ≤ 16) :
    pton6Loop (':' :: src) out colon cur x v = pton6Loop src (out ++ wordBytes v) colon src 0 0 := by
  rw [pton6Loop, hexVal_colon]
  simp only
  rw [if_pos trivial, if_neg (by omega), if_neg hs, if_neg (by omega)]

theorem pton6_colon {src cur : Str} {out : List Byte} {v : Nat} :
    pton6Loop (':' :: src) out none cur 0 v = pton6Loop src out (some out.length) src 0 v := by
  rw [pton6Loop, hexVal_colon]
  simp

/-- Groups separated by colons. -/
def groups : List Nat → Str
  | [] => []
  | [w] => hexStr w
  | w :: w' :: ws => hexStr w ++ ':' :: groups (w' :: ws)

/-- Groups each of which follows a colon. -/
def colonGroups : List Nat → Str
  | [] => []
  | w :: ws => ':' :: hexStr w ++ colonGroups ws

theorem groups_cons (w : Nat) (ws : List Nat) : groups (w :: ws) = hexStr w ++ colonGroups ws := by
  induction ws generalizing w with
  | nil => simp [groups, colonGroups]
  | cons w' ws ih => rw [groups, colonGroups, ih]; simp

/-- The bytes of a list of groups. -/
def groupBytes : List Nat → List Byte
  | [] => []
  | w :: ws => wordBytes w ++ groupBytes ws

theorem groupBytes_length (ws : List Nat) : (groupBytes ws).length = 2 * ws.length := by
  induction ws with
  | nil => rfl
  | cons w ws ih => simp [groupBytes, wordBytes, ih]; omega

theorem groupBytes_append (l m : List Nat) : groupBytes (l ++ m) = groupBytes l ++ groupBytes m := by
  induction l with
  | nil => rfl
  | cons w l ih => simp [groupBytes, ih]

theorem hexStr_ne_nil (w : Nat) : hexStr w ≠ [] := by
  unfold hexStr
  rcases Nat.lt_or_ge w 16 with h | h
  · rw [numStr_small h]; simp
  · rw [numStr_step (by omega) h]; simp

/-- Groups up to the end of the text. -/
theorem pton6_groups_end (ws : List Nat) (w : Nat) (out : List Byte) (colon : Option Nat) (cur : Str)
    (hw : ∀ x ∈ w :: ws, x < 65536) (ho : out.length + 2 * (ws.length + 1) ≤ 16) :
    pton6Loop (groups (w :: ws)) out colon cur 0 0 = some (out ++ groupBytes (w :: ws), colon) := by
  induction ws generalizing w out cur with
  | nil =>
    obtain ⟨x, hx, h⟩ := pton6_group (src := []) (cur := cur) (out := out) (colon := colon) (hw w (by simp))
    simp only [List.append_nil] at h
    rw [groups, h, pton6Loop, if_pos hx, if_neg (by simp at ho; omega)]
    simp [groupBytes]
  | cons w' ws ih =>
    obtain ⟨x, hx, h⟩ := pton6_group (src := ':' :: groups (w' :: ws)) (cur := cur) (out := out) (colon := colon) (hw w (by simp))
    simp only [List.length_cons] at ho
    have hne : groups (w' :: ws) ≠ [] := by
      rw [groups_cons]; simp [hexStr_ne_nil]
    rw [groups, h, pton6_sep hx hne (by omega),
      ih w' _ _ (fun y hy => hw y (List.mem_cons_of_mem _ hy)) (by simp [wordBytes]; omega)]
    simp [groupBytes]

/-- Groups followed by `::`. -/
theorem pton6_groups_colon (ws : List Nat) (w : Nat) (out : List Byte) (cur rest : Str)
    (hw : ∀ x ∈ w :: ws, x < 65536) (ho : out.length + 2 * (ws.length + 1) ≤ 16) :
    pton6Loop (groups (w :: ws) ++ ':' :: ':' :: rest) out none cur 0 0
      = pton6Loop rest (out ++ groupBytes (w :: ws)) (some (out ++ groupBytes (w :: ws)).length) rest 0 0 := by
  induction ws generalizing w out cur with
  | nil =>
    obtain ⟨x, hx, h⟩ := pton6_group (src := ':' :: ':' :: rest) (cur := cur) (out := out) (colon := none) (hw w (by simp))
    rw [groups, h, pton6_sep hx (by simp) (by simp at ho; omega), pton6_colon]
    simp [groupBytes]
  | cons w' ws ih =>
    obtain ⟨x, hx, h⟩ := pton6_group (src := ':' :: (groups (w' :: ws) ++ ':' :: ':' :: rest)) (cur := cur) (out := out)
      (colon := none) (hw w (by simp))
    simp only [List.length_cons] at ho
    rw [groups]
    simp only [List.append_assoc, List.cons_append]
    rw [h, pton6_sep hx (by simp) (by omega),
      ih w' _ _ (fun y hy => hw y (List.mem_cons_of_mem _ hy)) (by simp [wordBytes]; omega)]
    simp [groupBytes]

/-- The digits of a decimal number below 256 are read as a group. -/
theorem pton6_dec {src cur : Str} {out : List Byte} {colon : Option Nat} {n : Nat} (hn : n ≤ 255) :
    ∃ x v, pton6Loop (decStr n ++ src) out colon cur 0 0 = pton6Loop src out colon cur x v := by
  unfold decStr
  rcases Nat.lt_or_ge n 10 with h1 | h1
  · refine ⟨1, n, ?_⟩
    rw [numStr_small h1]
    simp only [List.cons_append, List.nil_append]
    rw [pton6_digit (by omega) (by omega) (by omega)]
    simp
  · rw [numStr_step (by omega) h1]
    rcases Nat.lt_or_ge (n / 10) 10 with h2 | h2
    · refine ⟨2, n / 10 * 16 + n % 10, ?_⟩
      rw [numStr_small h2]
      simp only [List.cons_append, List.nil_append]
      rw [pton6_digit (by omega) (by omega) (by omega), pton6_digit (by omega) (by omega) (by omega)]
      congr 1; omega
    · refine ⟨3, (n / 10 / 10 * 16 + n / 10 % 10) * 16 + n % 10, ?_⟩
      rw [numStr_step (by omega) h2, numStr_small (by omega : n / 10 / 10 < 10)]
      simp only [List.cons_append, List.nil_append]
      rw [pton6_digit (by omega) (by omega) (by omega), pton6_digit (by omega) (by omega) (by omega),
        pton6_digit (by omega) (by omega) (by omega)]
      congr 1; omega

/-- A dotted tail. -/
theorem pton6_dotted (v : Bytes4) (out : List Byte) (colon : Option Nat) (ho : out.length + 4 ≤ 16) :
    pton6Loop (ntop4 v) out colon (ntop4 v) 0 0 = some (out ++ v.toList, colon) := by
  have hp := pton4_ntop4 v
  generalize hc : ntop4 v = cur at hp
  have : ntop4 v = decStr v[0].toNat ++ ('.' :: (decStr v[1].toNat ++ '.' :: decStr v[2].toNat ++ '.' :: decStr v[3].toNat)) := by
    simp [ntop4]
  obtain ⟨x, y, h⟩ := pton6_dec (src := '.' :: (decStr v[1].toNat ++ '.' :: decStr v[2].toNat ++ '.' :: decStr v[3].toNat))
    (cur := cur) (out := out) (colon := colon) (byte_le v[0])
  rw [show pton6Loop cur out colon cur 0 0 = pton6Loop (ntop4 v) out colon cur 0 0 by rw [hc], this, h, pton6Loop, hexVal_dot]
  simp [hp, ho]

/-! ## The run of zeros found by `inet_ntop6()` -/

/-- The groups of a run are zero. -/
def RunZero (ws : List Nat) : Run → Prop
  | none => True
  | some (b, l) => ∀ j, b ≤ j → j < b + l → ws[j]? = some 0

theorem better_zero {ws : List Nat} {b c : Run} (hb : RunZero ws b) (hc : RunZero ws c) : RunZero ws (better b c) := by
  unfold better
  split
  · exact hb
  · exact hc
  · split <;> assumption

theorem scan_zero (ws : List Nat) : ∀ (rest : List Nat) (i : Nat) (best cur : Run), (∀ j, rest[j]? = ws[i + j]?) →
    RunZero ws best → RunZero ws cur → (∀ b l, cur = some (b, l) → b + l = i) → RunZero ws (scan i rest best cur)
  | [], i, best, cur, _, hb, hc, _ => better_zero hb hc
  | w :: rest, i, best, cur, hr, hb, hc, hi => by
    have hw : ws[i]? = some w := by have := hr 0; simpa using this.symm
    have hr' : ∀ j, rest[j]? = ws[i + 1 + j]? := by
      intro j; have := hr (j + 1); rw [Nat.add_assoc, Nat.add_comm 1 j, ← this]; simp
    rw [scan.eq_def]
    simp only
    split
    · rename_i h0
      subst h0
      cases cur with
      | none =>
        refine scan_zero ws rest _ _ _ hr' hb ?_ ?_
        · intro j h1 h2
          obtain rfl : j = i := by omega
          exact hw
        · intro b l h; cases h; rfl
      | some r =>
        obtain ⟨b, l⟩ := r
        have := hi b l rfl
        refine scan_zero ws rest _ _ _ hr' hb ?_ ?_
        · intro j h1 h2
          rcases Nat.lt_or_ge j (b + l) with h3 | h3
          · exact hc j h1 h3
          · obtain rfl : j = i := by omega
            exact hw
        · intro b' l' h; cases h; omega
    · exact scan_zero ws rest _ _ _ hr' (better_zero hb hc) trivial (by simp)

theorem bestRun_zero {ws : List Nat} {b l : Nat} (h : bestRun ws = some (b, l)) :
    2 ≤ l ∧ ∀ j, b ≤ j → j < b + l → ws[j]? = some 0 := by
  have hz := scan_zero ws ws 0 none none (by simp) trivial trivial (by simp)
  unfold bestRun at h
  split at h
  · rename_i b' l' e
    rw [e] at hz
    split at h
    · exact nomatch h
    · cases h
      exact ⟨by omega, hz⟩
  · exact nomatch h

/-- A run is at least as good as another one: longer, or as long and not after. -/
def Dom (r : Run) (b' l' : Nat) : Prop := ∃ b l, r = some (b, l) ∧ l' ≤ l ∧ (l' = l → b ≤ b')

theorem better_dom {best cur : Run} (hbc : ∀ b l c k, best = some (b, l) → cur = some (c, k) → b ≤ c) {b' l' : Nat}
    (h : Dom best b' l' ∨ Dom cur b' l') : Dom (better best cur) b' l' := by
  unfold better
  match cur, best, hbc, h with
  | none, best, _, h =>
    rcases h with h | ⟨_, _, h, _⟩
    · exact h
    · cases h
  | some c, none, _, h =>
    rcases h with ⟨_, _, h, _⟩ | h
    · cases h
    · exact h
  | some (c, k), some (b, l), hbc, h =>
    have hle := hbc b l c k rfl rfl
    dsimp only
    by_cases hk : k > l
    · rw [if_pos hk]
      rcases h with ⟨x, y, e, h1, h2⟩ | h
      · cases e
        exact ⟨c, k, rfl, by omega, by omega⟩
      · exact h
    · rw [if_neg hk]
      rcases h with h | ⟨x, y, e, h1, h2⟩
      · exact h
      · cases e
        exact ⟨b, l, rfl, by omega, by omega⟩

/-- The scan finds the first of the longest runs. -/
theorem scan_best (ws : List Nat) : ∀ (rest : List Nat) (i : Nat) (best cur : Run), (∀ j, rest[j]? = ws[i + j]?) →
    (∀ b l, cur = some (b, l) → b + l = i) → (∀ b l, best = some (b, l) → b ≤ i) →
    (∀ b l c k, best = some (b, l) → cur = some (c, k) → b ≤ c) →
    (∀ b' l', 1 ≤ l' → RunZero ws (some (b', l')) → b' + l' = i → ∃ b l, cur = some (b, l) ∧ b ≤ b') →
    (∀ b' l', 1 ≤ l' → RunZero ws (some (b', l')) → b' + l' ≤ i → Dom best b' l' ∨ Dom cur b' l') →
    ∀ b' l', 1 ≤ l' → RunZero ws (some (b', l')) → Dom (scan i rest best cur) b' l'
  | [], i, best, cur, hr, _, _, hbc, _, hd => by
    intro b' l' h1 hz
    refine better_dom hbc (hd b' l' h1 hz ?_)
    have hlast := hz (b' + l' - 1) (by omega) (by omega)
    apply Nat.le_of_not_lt
    intro hlt
    have := hr (b' + l' - 1 - i)
    rw [show i + (b' + l' - 1 - i) = b' + l' - 1 by omega, hlast] at this
    simp at this
  | w :: rest, i, best, cur, hr, hi, hbi, hbc, hc, hd => by
    have hw : ws[i]? = some w := by have := hr 0; simpa using this.symm
    have hr' : ∀ j, rest[j]? = ws[i + 1 + j]? := by
      intro j; have := hr (j + 1); rw [Nat.add_assoc, Nat.add_comm 1 j, ← this]; simp
    have shorter : ∀ {b' l' : Nat}, RunZero ws (some (b', l')) → RunZero ws (some (b', l' - 1)) :=
      fun h j h1 h2 => h j h1 (by omega)
    rw [scan.eq_def]
    simp only
    split
    · rename_i h0
      subst h0
      cases cur with
      | none =>
        refine scan_best ws rest _ _ _ hr' ?_ ?_ ?_ ?_ ?_
        · intro b l h; cases h; rfl
        · intro b l h; have := hbi b l h; omega
        · intro b l c k h1 h2; cases h2; exact hbi b l h1
        · intro b' l' h1 hz he
          by_cases hl : l' = 1
          · exact ⟨i, 1, rfl, by omega⟩
          · obtain ⟨_, _, h, _⟩ := hc b' (l' - 1) (by omega) (shorter hz) (by omega)
            cases h
        · intro b' l' h1 hz he
          by_cases hle : b' + l' ≤ i
          · rcases hd b' l' h1 hz hle with h | ⟨_, _, h, _⟩
            · exact Or.inl h
            · cases h
          · by_cases hl : l' = 1
            · exact Or.inr ⟨i, 1, rfl, by omega, by omega⟩
            · obtain ⟨_, _, h, _⟩ := hc b' (l' - 1) (by omega) (shorter hz) (by omega)
              cases h
      | some r =>
        obtain ⟨b, l⟩ := r
        have hbl := hi b l rfl
        refine scan_best ws rest _ _ _ hr' ?_ ?_ ?_ ?_ ?_
        · intro b' l' h; cases h; omega
        · intro b l h; have := hbi b l h; omega
        · intro b1 l1 c k h1 h2; cases h2; exact hbc b1 l1 b l h1 rfl
        · intro b' l' h1 hz he
          refine ⟨b, l + 1, rfl, ?_⟩
          by_cases hl : l' = 1
          · omega
          · obtain ⟨_, _, h, hle⟩ := hc b' (l' - 1) (by omega) (shorter hz) (by omega)
            cases h
            exact hle
        · intro b' l' h1 hz he
          by_cases hle : b' + l' ≤ i
          · rcases hd b' l' h1 hz hle with h | ⟨_, _, h, h2, h3⟩
            · exact Or.inl h
            · cases h
              exact Or.inr ⟨b, l + 1, rfl, by omega, by omega⟩
          · refine Or.inr ⟨b, l + 1, rfl, ?_⟩
            by_cases hl : l' = 1
            · exact ⟨by omega, by omega⟩
            · obtain ⟨_, _, h, hle⟩ := hc b' (l' - 1) (by omega) (shorter hz) (by omega)
              cases h
              exact ⟨by omega, by omega⟩
    · rename_i h0
      have hno : ∀ b' l', 1 ≤ l' → RunZero ws (some (b', l')) → b' + l' ≠ i + 1 := by
        intro b' l' h1 hz he
        have := hz i (by omega) (by omega)
        rw [hw] at this
        exact h0 (Option.some.inj this)
      refine scan_best ws rest _ _ _ hr' ?_ ?_ ?_ ?_ ?_
      · intro b l h; cases h
      · intro b l h
        unfold better at h
        split at h
        · have := hbi b l h; omega
        · have := hi b l h; omega
        · rename_i c b2
          split at h
          · have := hi b l h; omega
          · have := hbi b l h; omega
      · intro b l c k _ h; cases h
      · intro b' l' h1 hz he
        exact absurd he (hno b' l' h1 hz)
      · intro b' l' h1 hz he
        refine Or.inl (better_dom hbc (hd b' l' h1 hz ?_))
        have := hno b' l' h1 hz
        omega

theorem bestRun_best {ws : List Nat} {b' l' : Nat} (hl : 2 ≤ l') (hz : ∀ j, b' ≤ j → j < b' + l' → ws[j]? = some 0) :
    Dom (bestRun ws) b' l' := by
  obtain ⟨b, l, h1, h2, h3⟩ := scan_best ws ws 0 none none (by simp) (by simp) (by simp) (by simp)
    (fun b' l' h1 hz he => by omega) (fun b' l' h1 hz he => by omega) b' l' (by omega) hz
  refine ⟨b, l, ?_, h2, h3⟩
  unfold bestRun
  rw [h1]
  dsimp only
  rw [if_neg (by omega)]

/-- A list cut around the run. -/
theorem run_split {ws : List Nat} {b l : Nat} (hl : 0 < l) (h : ∀ j, b ≤ j → j < b + l → ws[j]? = some 0) :
    b + l ≤ ws.length ∧ ws = ws.take b ++ (List.replicate l 0 ++ ws.drop (b + l)) := by
  have hlen : b + l ≤ ws.length := by
    have := h (b + l - 1) (by omega) (by omega)
    have := (List.getElem?_eq_some_iff.1 this).1
    omega
  refine ⟨hlen, ?_⟩
  have : ws.drop b = List.replicate l 0 ++ ws.drop (b + l) := by
    apply List.ext_getElem?
    intro i
    rw [List.getElem?_drop, List.getElem?_append]
    split
    · rename_i hi
      simp only [List.length_replicate] at hi
      rw [h (b + i) (by omega) (by omega)]
      simp [hi]
    · rename_i hi
      simp only [List.length_replicate] at hi ⊢
      rw [List.getElem?_drop]
      congr 1; omega
  rw [← this, List.take_append_drop]

/-! ## The text printed by `inet_ntop6()` -/

theorem print6_none (tail : Str) (w5 : Nat) (ws : List Nat) (i : Nat) (hi : i ≠ 0) :
    print6 none tail w5 i ws = colonGroups ws := by
  induction ws generalizing i with
  | nil => rfl
  | cons w ws ih => rw [print6, if_pos hi, ih _ (by omega)]; rfl

theorem print6_after {b l : Nat} (tail : Str) (w5 : Nat) (hd : ¬ (b = 0 ∧ (l = 6 ∨ (l = 5 ∧ w5 = 0xFFFF))))
    (ws : List Nat) (i : Nat) (hi : i ≠ 0) (h : b + l ≤ i) :
    print6 (some (b, l)) tail w5 i ws = colonGroups ws := by
  induction ws generalizing i with
  | nil => rfl
  | cons w ws ih =>
    rw [print6]
    rw [if_neg (by omega), if_pos hi, if_neg (fun c => hd c.2), ih _ (by omega) (by omega)]
    rfl

theorem print6_in {b l : Nat} (tail : Str) (w5 : Nat) (post : List Nat) (k i : Nat) (hb : b < i) (hk : i + k = b + l) :
    print6 (some (b, l)) tail w5 i (List.replicate k 0 ++ post) = print6 (some (b, l)) tail w5 (b + l) post := by
  induction k generalizing i with
  | zero => simp at hk; subst hk; rfl
  | succ k ih =>
    rw [List.replicate_succ, List.cons_append, print6]
    rw [if_pos (by omega), if_neg (by omega), ih _ (by omega) (by omega)]

theorem print6_run {b l : Nat} (tail : Str) (w5 : Nat) (post : List Nat) (hl : 0 < l) :
    print6 (some (b, l)) tail w5 b (List.replicate l 0 ++ post) = ':' :: print6 (some (b, l)) tail w5 (b + l) post := by
  obtain ⟨k, rfl⟩ : ∃ k, l = k + 1 := ⟨l - 1, by omega⟩
  rw [List.replicate_succ, List.cons_append, print6]
  simp only
  rw [if_pos (by omega), if_pos trivial, print6_in tail w5 post k (b + 1) (by omega) (by omega)]

theorem print6_before {b l : Nat} (tail : Str) (w5 : Nat) (pre rest : List Nat) (i : Nat) (hi : i ≠ 0) (h : i + pre.length = b) :
    print6 (some (b, l)) tail w5 i (pre ++ rest) = colonGroups pre ++ print6 (some (b, l)) tail w5 b rest := by
  induction pre generalizing i with
  | nil => simp at h; subst h; rfl
  | cons w pre ih =>
    simp only [List.length_cons] at h
    rw [List.cons_append, print6]
    rw [if_neg (by omega), if_pos hi, if_neg (by omega), ih _ (by omega) (by omega)]
    simp [colonGroups]

theorem print6_start {l : Nat} (tail : Str) (w5 : Nat) (pre rest : List Nat) :
    print6 (some (pre.length, l)) tail w5 0 (pre ++ rest) = groups pre ++ print6 (some (pre.length, l)) tail w5 pre.length rest := by
  cases pre with
  | nil => rfl
  | cons w pre =>
    rw [List.cons_append, print6]
    simp only [List.length_cons]
    rw [if_neg (by omega), if_neg (by omega), if_neg (by omega),
      print6_before tail w5 pre rest 1 (by omega) (by omega), groups_cons]
    simp

theorem colonGroups_or (post : List Nat) : colonGroups post ++ (if post = [] then [':'] else []) = ':' :: groups post := by
  cases post with
  | nil => rfl
  | cons w ws => rw [groups_cons]; simp [colonGroups]

theorem groups_head (w : Nat) (ws : List Nat) (rest : Str) :
    ∃ c s, groups (w :: ws) ++ rest = c :: s ∧ c ≠ ':' := by
  have hx : ∀ w : Nat, ∃ c s, hexStr w = c :: s ∧ c ≠ ':' := by
    have hd : ∀ n : Nat, n < 16 → digitChar n ≠ ':' := by decide
    intro w
    unfold hexStr
    induction w using Nat.strongRecOn with
    | _ w ih =>
      rcases Nat.lt_or_ge w 16 with h | h
      · exact ⟨_, _, numStr_small h, hd w h⟩
      · obtain ⟨c, s, e, hc⟩ := ih (w / 16) (by omega)
        rw [numStr_step (by omega) h, e]
        exact ⟨c, _, rfl, hc⟩
  obtain ⟨c, s, e, hc⟩ := hx w
  rw [groups_cons, e]
  exact ⟨c, _, rfl, hc⟩

/-! ## Reading back what `inet_ntop6()` printed -/

theorem pton6_plain {c : Char} {s : Str} (hc : c ≠ ':') : pton6 (c :: s) = finish (pton6Loop (c :: s) [] none (c :: s) 0 0) := by
  rw [pton6, pton6Start, if_neg hc]

theorem pton6_colons {s : Str} : pton6 (':' :: ':' :: s) = finish (pton6Loop s [] (some 0) s 0 0) := by
  rw [pton6, pton6Start, if_pos rfl, if_pos List.head?_cons]
  simp only
  rw [pton6_colon]
  rfl

theorem toList_toArray (a : Bytes16) : a.toList.toArray = a.toArray := by
  cases a; rfl

theorem finish_none {a : Bytes16} : finish (some (a.toList, none)) = some a := by
  simp [finish, expand, toList_toArray]

theorem finish_some {a : Bytes16} {pre post : List Byte} {z : Nat} (hz : 0 < z) (h : a.toList = pre ++ (List.replicate z 0 ++ post)) :
    finish (some (pre ++ post, some pre.length)) = some a := by
  have hl : (pre ++ post).length = 16 - z ∧ z ≤ 16 := by
    have := congrArg List.length h
    simp at this ⊢
    omega
  have hexp : expand (pre ++ post) (some pre.length) = some a.toList := by
    rw [expand, if_neg (by omega), h]
    have : 16 - (pre ++ post).length = z := by omega
    rw [this]
    simp
  rw [finish]
  simp only [hexp]
  simp [toList_toArray]

theorem pton6_zip {a : Bytes16} {pre post : List Nat} {z : Nat} (hz : 0 < z) (hlen : 2 * (pre.length + post.length) + z ≤ 16)
    (hw : ∀ w ∈ pre ++ post, w < 65536) (h : a.toList = groupBytes pre ++ (List.replicate z 0 ++ groupBytes post)) :
    pton6 (groups pre ++ ':' :: ':' :: groups post) = some a := by
  have hend : ∀ (out : List Byte) (colon : Option Nat) (cur : Str), out.length = 2 * pre.length →
      pton6Loop (groups post) out colon cur 0 0 = some (out ++ groupBytes post, colon) := by
    intro out colon cur ho
    cases post with
    | nil => simp [groups, groupBytes, pton6Loop]
    | cons w ws =>
      exact pton6_groups_end ws w out colon cur (fun x hx => hw x (List.mem_append_right _ hx))
        (by simp only [List.length_cons] at hlen; omega)
  cases pre with
  | nil =>
    rw [show groups [] = [] from rfl, List.nil_append, pton6_colons, hend _ _ _ rfl]
    exact finish_some hz h
  | cons w ws =>
    obtain ⟨c, s, e, hc⟩ := groups_head w ws (':' :: ':' :: groups post)
    rw [e, pton6_plain hc, ← e, pton6_groups_colon ws w [] _ _ (fun x hx => hw x (List.mem_append_left _ hx))
      (by simp only [List.length_cons, List.length_nil] at hlen ⊢; omega), hend _ _ _ (by simp [groupBytes_length])]
    simp only [List.nil_append]
    exact finish_some hz h

theorem wordBytes_eq (x y : Byte) : wordBytes (x.toNat * 256 + y.toNat) = [x, y] := by
  unfold wordBytes
  have hx := x.isLt
  have hy := y.isLt
  congr 1
  · apply BitVec.eq_of_toNat_eq; simp; omega
  · congr 1
    apply BitVec.eq_of_toNat_eq; simp; omega

theorem words_bytes (a : Bytes16) : groupBytes (words a) = a.toList := by
  simp only [words, groupBytes, wordBytes_eq]
  apply List.ext_getElem
  · simp
  · intro i h1 h2
    simp at h1 
    have : i = 0 ∨ i = 1 ∨ i = 2 ∨ i = 3 ∨ i = 4 ∨ i = 5 ∨ i = 6 ∨ i = 7 ∨ i = 8 ∨ i = 9 ∨ i = 10 ∨ i = 11 ∨ i = 12 ∨ i = 13
      ∨ i = 14 ∨ i = 15 := by omega
    rcases this with rfl | rfl | rfl | rfl | rfl | rfl | rfl | rfl | rfl | rfl | rfl | rfl | rfl | rfl | rfl | rfl <;> rfl

theorem words_lt (a : Bytes16) : ∀ w ∈ words a, w < 65536 := by
  intro w hw
  simp only [words, List.mem_cons, List.not_mem_nil, or_false] at hw
  rcases hw with h | h | h | h | h | h | h | h <;> subst h <;>
    exact (by intro x y; have := x.isLt; have := y.isLt; omega : ∀ x y : Byte, x.toNat * 256 + y.toNat < 65536) _ _

theorem groupBytes_zeros (l : Nat) : groupBytes (List.replicate l 0) = List.replicate (2 * l) 0 := by
  induction l with
  | zero => rfl
  | succ l ih => rw [List.replicate_succ, groupBytes, ih, show 2 * (l + 1) = 2 * l + 1 + 1 by omega]; rfl

/-- The last four bytes of an address. -/
def last4 (a : Bytes16) : Bytes4 := #v[a[12], a[13], a[14], a[15]]

/-- The four forms of the text printed by `inet_ntop6()`. -/
inductive Shape (a : Bytes16) : Prop
  | full (hno : ∀ b' l', 2 ≤ l' → ¬ ∀ j, b' ≤ j → j < b' + l' → (words a)[j]? = some 0) (h : ntop6 a = groups (words a))
  | zip (pre post : List Nat) (l : Nat) (hl : 2 ≤ l) (hw : words a = pre ++ (List.replicate l 0 ++ post))
      (hb : ∀ b' l', 2 ≤ l' → (∀ j, b' ≤ j → j < b' + l' → (words a)[j]? = some 0) → l' ≤ l ∧ (l' = l → pre.length ≤ b'))
      (hd : ¬ (pre.length = 0 ∧ (l = 6 ∨ (l = 5 ∧ (words a).getD 5 0 = 0xFFFF))))
      (h : ntop6 a = groups pre ++ ':' :: ':' :: groups post)
  | compat (x y : Nat) (hx : x ≠ 0) (hw : words a = List.replicate 6 0 ++ [x, y]) (h : ntop6 a = ':' :: ':' :: ntop4 (last4 a))
  | mapped (x y : Nat) (hw : words a = List.replicate 5 0 ++ [0xFFFF, x, y])
      (h : ntop6 a = ':' :: ':' :: (hexStr 0xFFFF ++ ':' :: ntop4 (last4 a)))

theorem ntop6_shape (a : Bytes16) : Shape a := by
  have hlen : (words a).length = 8 := rfl
  have hn : ntop6 a = print6 (bestRun (words a)) (ntop4 (last4 a)) ((words a).getD 5 0) 0 (words a) ++
      match bestRun (words a) with
      | some (base, len) => if base + len = 8 then [':'] else []
      | none => [] := rfl
  cases hrun : bestRun (words a) with
  | none =>
    rw [hrun] at hn
    refine .full (fun b' l' hl hz => ?_) ?_
    · obtain ⟨b, l, h, _⟩ := bestRun_best hl hz
      rw [hrun] at h
      cases h
    rw [hn]
    obtain ⟨w, ws, e⟩ : ∃ w ws, words a = w :: ws := ⟨_, _, rfl⟩
    simp only [List.append_nil]
    rw [e, groups_cons, print6, if_neg (by simp), print6_none _ _ _ _ (by omega)]
    rfl
  | some r =>
    obtain ⟨b, l⟩ := r
    obtain ⟨hl, hz⟩ := bestRun_zero hrun
    have hbest : ∀ b' l', 2 ≤ l' → (∀ j, b' ≤ j → j < b' + l' → (words a)[j]? = some 0) → l' ≤ l ∧ (l' = l → b ≤ b') := by
      intro b' l' hl' hz'
      obtain ⟨b1, l1, h, h1⟩ := bestRun_best hl' hz'
      rw [hrun] at h
      cases h
      exact h1
    obtain ⟨hbl, hsplit⟩ := run_split (by omega) hz
    rw [hrun] at hn
    simp only at hn
    generalize hpre : (words a).take b = pre at hsplit
    generalize hpost : (words a).drop (b + l) = post at hsplit
    have hb : pre.length = b := by rw [← hpre]; simp; omega
    have hpl : post.length = 8 - (b + l) := by rw [← hpost]; simp [hlen]
    subst hb
    have hshape : print6 (some (pre.length, l)) (ntop4 (last4 a)) ((words a).getD 5 0) 0 (words a)
        = groups pre ++ ':' :: print6 (some (pre.length, l)) (ntop4 (last4 a)) ((words a).getD 5 0)
            (pre.length + l) post := by
      rw [show print6 (some (pre.length, l)) (ntop4 (last4 a)) ((words a).getD 5 0) 0 (words a)
          = print6 (some (pre.length, l)) (ntop4 (last4 a)) ((words a).getD 5 0) 0
              (pre ++ (List.replicate l 0 ++ post)) by rw [← hsplit], print6_start, print6_run _ _ _ (by omega)]
    rw [hshape] at hn
    by_cases hd : pre.length = 0 ∧ (l = 6 ∨ (l = 5 ∧ (words a).getD 5 0 = 0xFFFF))
    · obtain ⟨h0, hd⟩ := hd
      have hp0 : pre = [] := List.eq_nil_of_length_eq_zero h0
      subst hp0
      rw [if_neg (by rcases hd with hd | hd <;> simp <;> omega)] at hn
      rcases hd with hd | ⟨hd, h5⟩
      · subst hd
        obtain ⟨x, y, e⟩ : ∃ x y, post = [x, y] := by
          match post, hpl with
          | [x, y], _ => exact ⟨x, y, rfl⟩
        rw [e] at hsplit
        refine .compat x y ?_ hsplit ?_
        · rintro rfl
          have := (hbest 0 7 (by omega) ?_).1
          · omega
          · intro j _ hj
            rw [hsplit]
            have : j = 0 ∨ j = 1 ∨ j = 2 ∨ j = 3 ∨ j = 4 ∨ j = 5 ∨ j = 6 := by omega
            rcases this with rfl | rfl | rfl | rfl | rfl | rfl | rfl <;> rfl
        rw [hn]
        simp only [groups, List.nil_append, List.length_nil, Nat.zero_add, List.append_nil, e]
        rw [print6]
        simp only [Nat.zero_le, ge_iff_le, true_and]
        rw [if_neg (by omega), if_pos (by omega), if_pos (by simp)]
        rfl
      · subst hd
        obtain ⟨z, x, y, e⟩ : ∃ z x y, post = [z, x, y] := by
          match post, hpl with
          | [z, x, y], _ => exact ⟨z, x, y, rfl⟩
        rw [e] at hsplit
        obtain rfl : z = 0xFFFF := by rw [hsplit] at h5; exact h5
        refine .mapped x y hsplit ?_
        rw [hn]
        simp only [groups, List.nil_append, List.length_nil, Nat.zero_add, List.append_nil, e]
        rw [print6]
        simp only [Nat.zero_le, ge_iff_le, true_and]
        rw [if_neg (by omega), if_pos (by omega), if_neg (by omega), print6]
        simp only [Nat.zero_le, ge_iff_le, true_and]
        rw [if_neg (by omega), if_pos (by omega), if_pos (by simp only [h5]; simp)]
        rfl
    · refine .zip pre post l hl hsplit hbest hd ?_
      rw [hn, print6_after _ _ hd _ _ (by omega) (by omega)]
      have : (if pre.length + l = 8 then [':'] else ([] : Str)) = if post = [] then [':'] else [] := by
        by_cases h : post = []
        · rw [if_pos h, if_pos (by rw [h] at hpl; simp at hpl; omega)]
        · rw [if_neg h, if_neg (by intro h'; apply h; apply List.eq_nil_of_length_eq_zero; omega)]
      rw [this, List.append_assoc, List.cons_append, colonGroups_or]

theorem groupBytes_two {a : Bytes16} {pre : List Nat} {x y : Nat} (h : words a = pre ++ [x, y]) :
    groupBytes [x, y] = (last4 a).toList := by
  have h2 : [x, y] = (words a).drop 6 := by
    have : pre.length = 6 := by
      have := congrArg List.length h
      simp [words] at this
      omega
    rw [h, ← this]; simp
  rw [h2]
  simp [words, groupBytes, wordBytes_eq, last4]

/-- **Round trip of the C library functions**: what `inet_ntop()` prints for an IPv6 address, `inet_pton()` reads back. -/
theorem pton6_ntop6 (a : Bytes16) : pton6 (ntop6 a) = some a := by
  have hlen : (words a).length = 8 := rfl
  have hwl := words_lt a
  have hwb := words_bytes a
  cases ntop6_shape a with
  | full _ h =>
    rw [h]
    obtain ⟨w, ws, e⟩ : ∃ w ws, words a = w :: ws := ⟨_, _, rfl⟩
    rw [e] at hwl hwb hlen ⊢
    obtain ⟨c, s, e', hc⟩ := groups_head w ws []
    rw [List.append_nil] at e'
    rw [e', pton6_plain hc, ← e', pton6_groups_end ws w [] none _ hwl (by simp at hlen ⊢; omega), List.nil_append, hwb]
    exact finish_none
  | zip pre post l hl hw _ _ h =>
    rw [h]
    have hl8 : pre.length + (l + post.length) = 8 := by rw [hw] at hlen; simpa using hlen
    refine pton6_zip (z := 2 * l) (by omega) (by omega) ?_ ?_
    · intro w hx
      apply hwl
      rw [hw]
      simp only [List.mem_append] at hx ⊢
      rcases hx with h | h
      · exact Or.inl h
      · exact Or.inr (Or.inr h)
    · rw [← hwb, hw, groupBytes_append, groupBytes_append, groupBytes_zeros]
  | compat x y _ hw h =>
    rw [h, pton6_colons, pton6_dotted _ _ _ (by simp), List.nil_append]
    refine finish_some (pre := []) (post := (last4 a).toList) (z := 12) (by omega) ?_
    rw [← hwb, ← groupBytes_two hw, hw, groupBytes_append, groupBytes_zeros]
    rfl
  | mapped x y hw h =>
    have h2 : words a = (List.replicate 5 0 ++ [0xFFFF]) ++ [x, y] := by rw [hw]; simp
    rw [h, pton6_colons]
    obtain ⟨k, hk, e⟩ := pton6_group (src := ':' :: ntop4 (last4 a))
      (cur := hexStr 65535 ++ ':' :: ntop4 (last4 a)) (out := []) (colon := some 0) (w := 65535) (by omega)
    rw [e, pton6_sep hk (by simp [ntop4]) (by simp), pton6_dotted _ _ _ (by simp [wordBytes])]
    refine finish_some (pre := []) (post := wordBytes 65535 ++ (last4 a).toList) (z := 10) (by omega) ?_
    rw [← hwb, ← groupBytes_two h2, hw, groupBytes_append, groupBytes_zeros]
    rfl

/-! ## The characters of the texts -/

theorem numStr_chars (b : Nat) (hb : 2 ≤ b) (n : Nat) : ∀ c ∈ numStr b n, ∃ d < b, c = digitChar d := by
  induction n using Nat.strongRecOn with
  | _ n ih =>
    intro c hc
    rcases Nat.lt_or_ge n b with h | h
    · rw [numStr_small h] at hc
      exact ⟨n, h, by simpa using hc⟩
    · rw [numStr_step hb h, List.mem_append] at hc
      rcases hc with hc | hc
      · exact ih _ (Nat.div_lt_self (by omega) (by omega)) c hc
      · exact ⟨_, Nat.mod_lt _ (by omega), by simpa using hc⟩

theorem digitChar_dec : ∀ d < 10, digitChar d ∈ "0123456789".toList := by decide
theorem digitChar_hex : ∀ d < 16, digitChar d ∈ "0123456789abcdef".toList := by decide

theorem decStr_chars (n : Nat) : ∀ c ∈ decStr n, c ∈ "0123456789".toList := by
  intro c hc
  obtain ⟨d, hd, rfl⟩ := numStr_chars 10 (by omega) n c hc
  exact digitChar_dec d hd

theorem hexStr_chars (n : Nat) : ∀ c ∈ hexStr n, c ∈ "0123456789abcdef".toList := by
  intro c hc
  obtain ⟨d, hd, rfl⟩ := numStr_chars 16 (by omega) n c hc
  exact digitChar_hex d hd

theorem ntop4_chars (a : Bytes4) : ∀ c ∈ ntop4 a, c ∈ "0123456789.".toList := by
  have hs : ∀ c ∈ "0123456789".toList, c ∈ "0123456789.".toList := by decide
  intro c hc
  simp only [ntop4, List.mem_append, List.mem_cons, or_assoc] at hc
  rcases hc with h | h | h | h | h | h | h
  · exact hs c (decStr_chars _ c h)
  · subst h; decide
  · exact hs c (decStr_chars _ c h)
  · subst h; decide
  · exact hs c (decStr_chars _ c h)
  · subst h; decide
  · exact hs c (decStr_chars _ c h)

theorem groups_chars (ws : List Nat) : ∀ c ∈ groups ws, c ∈ "0123456789abcdef:".toList := by
  have hs : ∀ c ∈ "0123456789abcdef".toList, c ∈ "0123456789abcdef:".toList := by decide
  cases ws with
  | nil => simp [groups]
  | cons w ws =>
    rw [groups_cons]
    induction ws generalizing w with
    | nil => intro c hc; rw [colonGroups, List.append_nil] at hc; exact hs c (hexStr_chars _ c hc)
    | cons w' ws ih =>
      intro c hc
      rw [List.mem_append] at hc
      rcases hc with hc | hc
      · exact hs c (hexStr_chars _ c hc)
      · rw [colonGroups, List.cons_append, List.mem_cons] at hc
        rcases hc with hc | hc
        · subst hc; decide
        · exact ih w' c hc

theorem ntop6_chars (a : Bytes16) : ∀ c ∈ ntop6 a, c ∈ "0123456789abcdef:.".toList := by
  have hs1 : ∀ c ∈ "0123456789abcdef".toList, c ∈ "0123456789abcdef:.".toList := by decide
  have hs2 : ∀ c ∈ "0123456789abcdef:".toList, c ∈ "0123456789abcdef:.".toList := by decide
  have hs3 : ∀ c ∈ "0123456789.".toList, c ∈ "0123456789abcdef:.".toList := by decide
  intro c hc
  cases ntop6_shape a with
  | full _ h => rw [h] at hc; exact hs2 c (groups_chars _ c hc)
  | zip pre post l hl hw _ _ h =>
    rw [h, List.mem_append, List.mem_cons, List.mem_cons] at hc
    rcases hc with hc | hc | hc | hc
    · exact hs2 c (groups_chars _ c hc)
    · subst hc; decide
    · subst hc; decide
    · exact hs2 c (groups_chars _ c hc)
  | compat x y _ hw h =>
    rw [h, List.mem_cons, List.mem_cons] at hc
    rcases hc with hc | hc | hc
    · subst hc; decide
    · subst hc; decide
    · exact hs3 c (ntop4_chars _ c hc)
  | mapped x y hw h =>
    rw [h, List.mem_cons, List.mem_cons, List.mem_append, List.mem_cons] at hc
    rcases hc with hc | hc | hc | hc | hc
    · subst hc; decide
    · subst hc; decide
    · exact hs1 c (hexStr_chars _ c hc)
    · subst hc; decide
    · exact hs3 c (ntop4_chars _ c hc)

theorem colon_mem_ntop6 (a : Bytes16) : ':' ∈ ntop6 a := by
  cases ntop6_shape a with
  | full _ h =>
    rw [h]
    obtain ⟨w, w', ws, e⟩ : ∃ w w' ws, words a = w :: w' :: ws := ⟨_, _, _, rfl⟩
    rw [e, groups_cons, colonGroups]; simp
  | zip pre post l hl hw _ _ h => rw [h]; simp
  | compat x y _ hw h => rw [h]; simp
  | mapped x y hw h => rw [h]; simp

theorem colon_not_mem_ntop4 (a : Bytes4) : ':' ∉ ntop4 a := fun h => absurd (ntop4_chars a _ h) (by decide)

/-! ## The lengths of the texts -/

theorem numStr_length {b : Nat} (hb : 2 ≤ b) (k n : Nat) (hk : 0 < k) (h : n < b ^ k) : (numStr b n).length ≤ k := by
  induction k generalizing n with
  | zero => omega
  | succ k ih =>
    rcases Nat.lt_or_ge n b with h1 | h1
    · rw [numStr_small h1]; simp
    · rw [numStr_step hb h1, List.length_append]
      have hk0 : 0 < k := by
        rcases Nat.eq_zero_or_pos k with h0 | h0
        · subst h0; simp at h; omega
        · exact h0
      have := ih (n / b) hk0 (by rw [Nat.div_lt_iff_lt_mul (by omega)]; rwa [Nat.pow_succ] at h)
      simp; omega

theorem decStr_length {n : Nat} (h : n ≤ 255) : (decStr n).length ≤ 3 := numStr_length (by omega) 3 n (by omega) (by omega)

theorem ntop4_length (a : Bytes4) : (ntop4 a).length ≤ 15 := by
  have h0 := decStr_length (byte_le a[0])
  have h1 := decStr_length (byte_le a[1])
  have h2 := decStr_length (byte_le a[2])
  have h3 := decStr_length (byte_le a[3])
  simp only [ntop4, List.length_append, List.length_cons]
  omega

theorem groups_length (ws : List Nat) (h : ∀ w ∈ ws, w < 65536) : (groups ws).length ≤ 5 * ws.length - 1 := by
  have hc : ∀ ws : List Nat, (∀ w ∈ ws, w < 65536) → (colonGroups ws).length ≤ 5 * ws.length := by
    intro ws h
    induction ws with
    | nil => simp [colonGroups]
    | cons w ws ih =>
      have h1 := numStr_length (b := 16) (by omega) 4 w (by omega) (h w (by simp))
      have h2 := ih (fun x hx => h x (List.mem_cons_of_mem _ hx))
      simp only [colonGroups, hexStr, List.cons_append, List.length_cons, List.length_append]
      omega
  cases ws with
  | nil => simp [groups]
  | cons w ws =>
    have h1 := numStr_length (b := 16) (by omega) 4 w (by omega) (h w (by simp))
    have h2 := hc ws (fun x hx => h x (List.mem_cons_of_mem _ hx))
    simp only [groups_cons, hexStr, List.length_cons, List.length_append]
    omega

theorem ntop6_length (a : Bytes16) : (ntop6 a).length ≤ 39 := by
  have hlen : (words a).length = 8 := rfl
  have hwl := words_lt a
  cases ntop6_shape a with
  | full _ h => rw [h]; have := groups_length _ hwl; omega
  | zip pre post l hl hw _ _ h =>
    rw [h]
    rw [hw] at hlen hwl
    have h1 := groups_length pre (fun w hx => hwl w (by simp [hx]))
    have h2 := groups_length post (fun w hx => hwl w (by simp [hx]))
    simp only [List.length_append, List.length_replicate] at hlen
    simp only [List.length_append, List.length_cons]
    omega
  | compat x y _ hw h => rw [h]; have := ntop4_length (last4 a); simp only [List.length_cons]; omega
  | mapped x y hw h =>
    rw [h]; have := ntop4_length (last4 a)
    have := numStr_length (b := 16) (by omega) 4 0xFFFF (by omega) (by omega)
    simp only [hexStr, List.length_cons, List.length_append]; omega

/-! ## Decimal and hexadecimal numbers as printed by Lean's library -/

theorem digitChar_eq (n : Nat) (h : n < 16) : digitChar n = n.digitChar := by
  revert n; decide

theorem numStr_toDigits {b : Nat} (hb : 2 ≤ b) (hb' : b ≤ 16) (n : Nat) : numStr b n = Nat.toDigits b n := by
  induction n using Nat.strongRecOn with
  | _ n ih =>
    rcases Nat.lt_or_ge n b with h | h
    · rw [numStr_small h, Nat.toDigits_of_lt_base h, digitChar_eq n (by omega)]
    · rw [numStr_step hb h, Nat.toDigits_of_base_le (by omega) h, ih _ (Nat.div_lt_self (by omega) (by omega)),
        digitChar_eq _ (Nat.lt_of_lt_of_le (Nat.mod_lt _ (by omega)) hb')]

end Verif.Inet
