import Verif.SpecAddress
import Verif.Lemmas.AddrText

/-!
# Lemmas: the texts which `inet_pton()` accepts
-/

namespace Verif.Inet

open Spec

theorem decVal_some {c : Char} {d : Nat} (h : decVal c = some d) : d < 10 ∧ c = digitChar d := by
  unfold decVal at h
  split at h
  · rename_i hc
    have h1 : 48 ≤ c.toNat := hc.1
    have h2 : c.toNat ≤ 57 := hc.2
    have e : c = Char.ofNat c.toNat := (Char.ofNat_toNat c).symm
    cases h
    generalize c.toNat = n at h1 h2 e
    subst e
    rcases (by omega : n = 48 ∨ n = 49 ∨ n = 50 ∨ n = 51 ∨ n = 52 ∨ n = 53 ∨ n = 54 ∨ n = 55 ∨ n = 56 ∨ n = 57) with
      rfl | rfl | rfl | rfl | rfl | rfl | rfl | rfl | rfl | rfl <;> decide
  · cases h

theorem hexVal_some {c : Char} {d : Nat} (h : hexVal c = some d) : d < 16 ∧ HexDigit c d := by
  unfold hexVal at h
  have e : c = Char.ofNat c.toNat := (Char.ofNat_toNat c).symm
  split at h
  · rename_i hc
    have h1 : 48 ≤ c.toNat := hc.1
    have h2 : c.toNat ≤ 57 := hc.2
    cases h
    generalize c.toNat = n at h1 h2 e
    subst e
    unfold HexDigit
    rcases (by omega : n = 48 ∨ n = 49 ∨ n = 50 ∨ n = 51 ∨ n = 52 ∨ n = 53 ∨ n = 54 ∨ n = 55 ∨ n = 56 ∨ n = 57) with
      rfl | rfl | rfl | rfl | rfl | rfl | rfl | rfl | rfl | rfl <;> decide
  · split at h
    · rename_i hc
      have h1 : 97 ≤ c.toNat := hc.1
      have h2 : c.toNat ≤ 102 := hc.2
      cases h
      generalize c.toNat = n at h1 h2 e
      subst e
      unfold HexDigit
      rcases (by omega : n = 97 ∨ n = 98 ∨ n = 99 ∨ n = 100 ∨ n = 101 ∨ n = 102) with rfl | rfl | rfl | rfl | rfl | rfl <;> decide
    · split at h
      · rename_i hc
        have h1 : 65 ≤ c.toNat := hc.1
        have h2 : c.toNat ≤ 70 := hc.2
        cases h
        generalize c.toNat = n at h1 h2 e
        subst e
        unfold HexDigit
        rcases (by omega : n = 65 ∨ n = 66 ∨ n = 67 ∨ n = 68 ∨ n = 69 ∨ n = 70) with rfl | rfl | rfl | rfl | rfl | rfl <;> decide
      · cases h

theorem hexVal_of {c : Char} {d : Nat} (h : HexDigit c d) : hexVal c = some d ∧ d < 16 := by
  have hd : d < 16 := by
    rcases h with h | h
    · exact (List.getElem?_eq_some_iff.1 h).1
    · exact (List.getElem?_eq_some_iff.1 h).1
  refine ⟨?_, hd⟩
  unfold HexDigit at h
  rcases (by omega : d = 0 ∨ d = 1 ∨ d = 2 ∨ d = 3 ∨ d = 4 ∨ d = 5 ∨ d = 6 ∨ d = 7 ∨ d = 8 ∨ d = 9 ∨ d = 10 ∨ d = 11 ∨ d = 12 ∨ d = 13 ∨ d = 14 ∨ d = 15) with
    rfl | rfl | rfl | rfl | rfl | rfl | rfl | rfl | rfl | rfl | rfl | rfl | rfl | rfl | rfl | rfl <;>
  · rcases h with h | h <;> (cases Option.some.inj h; decide)

/-! ## IPv4 -/

/-- Decimal numbers separated by dots. -/
inductive Dots : Str → List Nat → Prop
  | one {n : Nat} (h : n ≤ 255) : Dots (decStr n) [n]
  | cons {n : Nat} {s : Str} {ns : List Nat} (h : n ≤ 255) (hs : Dots s ns) : Dots (decStr n ++ '.' :: s) (n :: ns)

theorem decStr_step {n d : Nat} (hn : n ≠ 0) (hd : d < 10) : decStr (n * 10 + d) = decStr n ++ [digitChar d] := by
  unfold decStr
  rw [numStr_step (by omega) (by omega), show (n * 10 + d) / 10 = n by omega, show (n * 10 + d) % 10 = d by omega]

theorem pton4Loop_some : ∀ (src : Str) (done : List Byte) (cur octets : Nat) (l : List Byte),
    (cur ≤ 255 → octets ≤ 4 → pton4Loop src done cur true octets = some l → ∃ ns, Dots (decStr cur ++ src) ns ∧ l = done ++ ns.map (BitVec.ofNat 8))
    ∧ (octets < 4 → pton4Loop src done 0 false octets = some l → ∃ ns, Dots src ns ∧ l = done ++ ns.map (BitVec.ofNat 8)) := by
  intro src
  induction src with
  | nil =>
    intro done cur octets l
    constructor
    · intro hc ho4 h
      rw [pton4Loop] at h
      split at h
      · cases h
      · cases h
        exact ⟨[cur], by rw [List.append_nil]; exact .one hc, rfl⟩
    · intro ho h
      rw [pton4Loop, if_pos ho] at h
      cases h
  | cons ch src ih =>
    intro done cur octets l
    constructor
    · intro hc ho4 h
      rw [pton4Loop] at h
      cases hv : decVal ch with
      | some d =>
        obtain ⟨hd, rfl⟩ := decVal_some hv
        rw [hv] at h
        dsimp only at h
        split at h
        · cases h
        · rename_i h0
          split at h
          · cases h
          · rename_i h1
            rw [if_neg (by decide)] at h
            obtain ⟨ns, h2, h3⟩ := (ih done (cur * 10 + d) octets l).1 (by omega) ho4 h
            rw [decStr_step (fun h' => h0 ⟨rfl, h'⟩) hd, List.append_assoc] at h2
            exact ⟨ns, h2, h3⟩
      | none =>
        rw [hv] at h
        dsimp only at h
        split at h
        · rename_i h0
          split at h
          · cases h
          · rename_i h1
            obtain ⟨ns, h2, h3⟩ := (ih (done ++ [BitVec.ofNat 8 cur]) 0 octets l).2 (by omega) h
            rw [h0.1]
            exact ⟨cur :: ns, .cons hc h2, by rw [h3, List.append_assoc]; rfl⟩
        · cases h
    · intro ho h
      rw [pton4Loop] at h
      cases hv : decVal ch with
      | some d =>
        obtain ⟨hd, rfl⟩ := decVal_some hv
        rw [hv] at h
        dsimp only at h
        rw [if_neg (fun h' => nomatch h'.1), if_neg (by omega), if_pos (by decide)] at h
        split at h
        · cases h
        · obtain ⟨ns, h2, h3⟩ := (ih done (0 * 10 + d) (octets + 1) l).1 (by omega) (by omega) h
          refine ⟨ns, ?_, h3⟩
          rw [show decStr (0 * 10 + d) = [digitChar d] by rw [Nat.zero_mul, Nat.zero_add]; exact numStr_small hd] at h2
          exact h2
      | none =>
        rw [hv] at h
        dsimp only at h
        rw [if_neg (fun h' => nomatch h'.2)] at h
        cases h

theorem dots_le {s : Str} {ns : List Nat} (h : Dots s ns) : ∀ n ∈ ns, n ≤ 255 := by
  induction h with
  | one h => intro n hn; rw [List.mem_singleton] at hn; omega
  | cons h _ ih =>
    intro n hn
    rcases List.mem_cons.1 hn with rfl | hn
    · exact h
    · exact ih n hn

theorem ofNat_le {n : Nat} (h : n ≤ 255) : (BitVec.ofNat 8 n).toNat = n := by
  rw [BitVec.toNat_ofNat]; omega

/-- `inet_pton4()` accepts the dotted decimal text of the address only. -/
theorem pton4_iff (s : Str) (b : Bytes4) : pton4 s = some b ↔ s = ntop4 b := by
  constructor
  · intro h
    unfold pton4 at h
    split at h
    · rename_i w x y z hl
      cases h
      obtain ⟨ns, h1, h2⟩ := (pton4Loop_some s [] 0 0 _).2 (by omega) hl
      rw [List.nil_append] at h2
      have hle := dots_le h1
      match ns, h2, h1, hle with
      | [n0, n1, n2, n3], h2, h1, hle =>
        simp only [List.map_cons, List.map_nil, List.cons.injEq, and_true] at h2
        obtain ⟨rfl, rfl, rfl, rfl⟩ := h2
        have e0 := hle n0 (by simp)
        have e1 := hle n1 (by simp)
        have e2 := hle n2 (by simp)
        have e3 := hle n3 (by simp)
        unfold ntop4
        show s = decStr (BitVec.ofNat 8 n0).toNat ++ '.' :: decStr (BitVec.ofNat 8 n1).toNat ++ '.' :: decStr (BitVec.ofNat 8 n2).toNat
          ++ '.' :: decStr (BitVec.ofNat 8 n3).toNat
        rw [ofNat_le e0, ofNat_le e1, ofNat_le e2, ofNat_le e3]
        cases h1 with
        | cons _ h1 =>
          cases h1 with
          | cons _ h1 =>
            cases h1 with
            | cons _ h1 =>
              cases h1 with
              | one _ => simp only [List.append_assoc, List.cons_append]
              | cons _ h1 => cases h1
    · cases h
  · rintro rfl
    exact pton4_ntop4 b

/-! ## IPv6 -/

/-- Groups which are all followed by a colon. -/
inductive Lead : Str → List Nat → Prop
  | nil : Lead [] []
  | cons {t s : Str} {w : Nat} {ws : List Nat} (h : Group t w) (hs : Lead s ws) : Lead (t ++ ':' :: s) (w :: ws)

theorem hexNum_lt {t : Str} {v : Nat} (h : HexNum t v) : v < 16 ^ t.length := by
  induction h with
  | nil => decide
  | snoc _ hc ih =>
    have := (hexVal_of hc).2
    rw [List.length_append, List.length_singleton, Nat.pow_succ]
    omega

theorem group_lt {t : Str} {w : Nat} (h : Group t w) : w < 65536 := by
  have h1 := hexNum_lt h.1
  have h2 : 16 ^ t.length ≤ 16 ^ 4 := Nat.pow_le_pow_right (by decide) h.2.2
  omega

/-- The texts after `::`. -/
def AfterZip (t : Str) (ws : List Nat) : Prop := t = [] ∧ ws = [] ∨ LastGroups t ws

theorem hexNum_nil {v : Nat} (h : HexNum [] v) : v = 0 := by
  have := hexNum_lt h
  simp only [List.length_nil, Nat.pow_zero] at this
  omega

theorem bytes4_list (b : Bytes4) : b.toList = [b[0], b[1], b[2], b[3]] := by
  apply List.ext_getElem
  · simp
  · intro i h1 h2
    have : i = 0 ∨ i = 1 ∨ i = 2 ∨ i = 3 := by simp at h1; omega
    rcases this with rfl | rfl | rfl | rfl <;> rfl

theorem ip4_words (v : Bytes4) : LastGroups (ntop4 v) [v[0].toNat * 256 + v[1].toNat, v[2].toNat * 256 + v[3].toNat] := by
  have hl : ip4 v < 2 ^ 32 := by
    have := value_lt v.toList
    rw [Vector.length_toList] at this
    exact this
  have e := LastGroups.dots hl
  rw [← ntop4_dotted] at e
  have hv : ip4 v = v[0].toNat * 2 ^ 24 + v[1].toNat * 2 ^ 16 + v[2].toNat * 256 + v[3].toNat := by
    rw [ip4, bytes4_list]
    simp [value]
    omega
  have b0 := byte_le v[0]
  have b1 := byte_le v[1]
  have b2 := byte_le v[2]
  have b3 := byte_le v[3]
  rw [show ip4 v / 65536 = v[0].toNat * 256 + v[1].toNat by omega, show ip4 v % 65536 = v[2].toNat * 256 + v[3].toNat by omega] at e
  exact e

/-- The loop of `inet_pton6()` once a group has begun (`pre`), or before it has. -/
theorem pton6Loop_some : ∀ (src : Str) (out : List Byte) (colon : Option Nat) (pre : Str) (v : Nat) (out' : List Byte) (c : Option Nat),
    HexNum pre v → pre.length ≤ 4 → pton6Loop src out colon (pre ++ src) pre.length v = some (out', c) →
    (∃ ws, c = colon ∧ AfterZip (pre ++ src) ws ∧ out' = out ++ groupBytes ws)
      ∨ (∃ l ps q qs, colon = none ∧ pre ++ src = l ++ ':' :: q ∧ Lead l ps ∧ AfterZip q qs
          ∧ c = some (out ++ groupBytes ps).length ∧ out' = out ++ groupBytes ps ++ groupBytes qs) := by
  intro src
  induction src with
  | nil =>
    intro out colon pre v out' c hp hl h
    rw [pton6Loop] at h
    split at h
    · rename_i h0
      split at h
      · cases h
      · cases h
        exact .inl ⟨[v], rfl, .inr (by rw [List.append_nil]; exact .one ⟨hp, h0, hl⟩), by simp [groupBytes]⟩
    · rename_i h0
      cases h
      have : pre = [] := List.eq_nil_of_length_eq_zero (by omega)
      exact .inl ⟨[], rfl, .inl ⟨by rw [this]; rfl, rfl⟩, by simp [groupBytes]⟩
  | cons ch src ih =>
    intro out colon pre v out' c hp hl h
    rw [pton6Loop] at h
    cases hv : hexVal ch with
    | some d =>
      obtain ⟨hd, hdig⟩ := hexVal_some hv
      rw [hv] at h
      dsimp only at h
      split at h
      · cases h
      · rename_i h4
        split at h
        · cases h
        · have := ih out colon (pre ++ [ch]) (v * 16 + d) out' c (.snoc hp hdig) (by rw [List.length_append, List.length_singleton]; omega)
            (by rw [List.length_append, List.length_singleton, List.append_assoc]; exact h)
          rw [List.append_assoc] at this
          exact this
    | none =>
      rw [hv] at h
      dsimp only at h
      split at h
      · rename_i hch
        subst hch
        split at h
        · rename_i h0
          have : pre = [] := List.eq_nil_of_length_eq_zero h0
          subst this
          cases hexNum_nil hp
          split at h
          · cases h
          · rename_i hc
            have hc' : colon = none := by
              cases colon with
              | none => rfl
              | some _ => exact absurd rfl hc
            rcases ih out (some out.length) [] 0 out' c .nil (by decide) h with ⟨ws, h1, h2, h3⟩ | ⟨_, _, _, _, h1, _⟩
            · exact .inr ⟨[], [], src, ws, hc', rfl, .nil, h2, by rw [h1]; simp [groupBytes], by rw [h3]; simp [groupBytes]⟩
            · cases h1
        · rename_i h0
          split at h
          · cases h
          · rename_i hsrc
            split at h
            · cases h
            · have hg : Group pre v := ⟨hp, by omega, hl⟩
              rcases ih (out ++ wordBytes v) colon [] 0 out' c .nil (by decide) h with ⟨ws, h1, h2, h3⟩ | ⟨l, ps, q, qs, h1, h2, h3, h4, h5, h6⟩
              · rcases h2 with ⟨h2, _⟩ | h2
                · exact absurd h2 hsrc
                · exact .inl ⟨v :: ws, h1, .inr (.cons hg h2), by rw [h3]; simp [groupBytes]⟩
              · refine .inr ⟨pre ++ ':' :: l, v :: ps, q, qs, h1, ?_, .cons hg h3, h4, ?_, ?_⟩
                · rw [List.nil_append] at h2
                  rw [h2, List.append_assoc]
                  rfl
                · rw [h5]; simp [groupBytes]
                · rw [h6]; simp [groupBytes]
      · split at h
        · split at h
          · rename_i b hb
            cases h
            rw [(pton4_iff _ _).1 hb]
            exact .inl ⟨_, rfl, .inr (ip4_words b), by
              rw [show b.toList = [b[0], b[1], b[2], b[3]] from bytes4_list b]
              simp only [groupBytes, wordBytes_eq]
              rfl⟩
          · cases h
        · cases h

theorem lead_groups {l : Str} {ps : List Nat} (h : Lead l ps) : (l = [] ∧ ps = []) ∨ ∃ p, l = p ++ [':'] ∧ Groups p ps := by
  induction h with
  | nil => exact .inl ⟨rfl, rfl⟩
  | cons hg _ ih =>
    rename_i t s w ws _
    rcases ih with ⟨rfl, rfl⟩ | ⟨p, rfl, hp⟩
    · exact .inr ⟨t, rfl, .one hg⟩
    · exact .inr ⟨t ++ ':' :: p, by simp, .cons hg hp⟩

theorem groups_word {t : Str} {ws : List Nat} (h : Groups t ws) : ∀ w ∈ ws, w < 65536 := by
  induction h with
  | one hg => intro w hw; rw [List.mem_singleton] at hw; subst hw; exact group_lt hg
  | cons hg _ ih =>
    intro w hw
    rcases List.mem_cons.1 hw with rfl | hw
    · exact group_lt hg
    · exact ih w hw

theorem last_word {t : Str} {ws : List Nat} (h : LastGroups t ws) : ∀ w ∈ ws, w < 65536 := by
  induction h with
  | one hg => intro w hw; rw [List.mem_singleton] at hw; subst hw; exact group_lt hg
  | dots hv =>
    intro w hw
    rcases List.mem_cons.1 hw with rfl | hw
    · omega
    · rw [List.mem_singleton] at hw; omega
  | cons hg _ ih =>
    intro w hw
    rcases List.mem_cons.1 hw with rfl | hw
    · exact group_lt hg
    · exact ih w hw

theorem text6_word {t : Str} {ws : List Nat} (h : IPv6Text t ws) : ws.length = 8 ∧ ∀ w ∈ ws, w < 65536 := by
  cases h with
  | full h hl => exact ⟨hl, last_word h⟩
  | zip hp hq hz hl =>
    refine ⟨by simp only [List.length_append, List.length_replicate]; exact hl, ?_⟩
    intro w hw
    rw [List.mem_append, List.mem_append] at hw
    rcases hw with (hw | hw) | hw
    · rcases hp with ⟨_, rfl⟩ | hp
      · cases hw
      · exact groups_word hp w hw
    · rw [(List.mem_replicate.1 hw).2]; decide
    · rcases hq with ⟨_, rfl⟩ | hq
      · cases hw
      · exact last_word hq w hw

theorem groupBytes_inj : ∀ {l m : List Nat}, (∀ w ∈ l, w < 65536) → (∀ w ∈ m, w < 65536) → groupBytes l = groupBytes m → l = m
  | [], [], _, _, _ => rfl
  | [], _ :: _, _, _, h => by simp [groupBytes, wordBytes] at h
  | _ :: _, [], _, _, h => by simp [groupBytes, wordBytes] at h
  | x :: l, y :: m, hl, hm, h => by
    simp only [groupBytes, wordBytes, List.cons_append, List.nil_append, List.cons.injEq] at h
    obtain ⟨h1, h2, h3⟩ := h
    have e1 := congrArg BitVec.toNat h1
    have e2 := congrArg BitVec.toNat h2
    simp only [BitVec.toNat_ofNat] at e1 e2
    have hx := hl x (by simp)
    have hy := hm y (by simp)
    rw [groupBytes_inj (fun w hw => hl w (List.mem_cons_of_mem _ hw)) (fun w hw => hm w (List.mem_cons_of_mem _ hw)) h3]
    congr 1
    omega

theorem finish_eq {r : Option (List Byte × Option Nat)} {b : Bytes16} (h : finish r = some b) :
    ∃ out c, r = some (out, c) ∧ expand out c = some b.toList := by
  unfold finish at h
  split at h
  · cases h
  · rename_i out c
    refine ⟨out, c, rfl, ?_⟩
    split at h
    · cases h
    · rename_i l hl
      split at h
      · cases h
        rw [hl]
        simp
      · cases h

theorem expand_zip {pre post : List Byte} {l : List Byte} (h : expand (pre ++ post) (some pre.length) = some l) (hl : l.length = 16) :
    (pre ++ post).length < 16 ∧ l = pre ++ List.replicate (16 - (pre ++ post).length) 0 ++ post := by
  unfold expand at h
  dsimp only at h
  split at h
  · cases h
  · rename_i hne
    cases h
    refine ⟨?_, by simp⟩
    simp at hl hne ⊢
    omega

theorem zip_words {ps qs : List Nat} {b : Bytes16} (hlt : (groupBytes ps ++ groupBytes qs).length < 16)
    (h : b.toList = groupBytes ps ++ List.replicate (16 - (groupBytes ps ++ groupBytes qs).length) 0 ++ groupBytes qs) :
    b.toList = groupBytes (ps ++ List.replicate (8 - ps.length - qs.length) 0 ++ qs) ∧ ps.length + qs.length < 8 := by
  rw [List.length_append, groupBytes_length, groupBytes_length] at hlt h
  refine ⟨?_, by omega⟩
  rw [h, groupBytes_append, groupBytes_append, groupBytes_zeros]
  congr 4
  omega

/-- What `inet_pton6()` accepts. -/
theorem pton6_text {s : Str} {b : Bytes16} (h : pton6 s = some b) : ∃ ws, IPv6Text s ws ∧ b.toList = groupBytes ws := by
  match s, h with
  | [], h => cases h
  | c :: s, h =>
    by_cases hc : c = ':'
    · subst hc
      match s, h with
      | [], h => cases h
      | d :: s, h =>
        by_cases hd : d = ':'
        · subst hd
          rw [pton6_colons] at h
          obtain ⟨out, c, e, hx⟩ := finish_eq h
          rcases pton6Loop_some s [] (some 0) [] 0 out c .nil (by decide) e with ⟨ws, rfl, h2, h3⟩ | ⟨_, _, _, _, h1, _⟩
          · rw [h3] at hx
            obtain ⟨h4, h5⟩ := expand_zip (pre := []) hx (by simp)
            obtain ⟨h6, h7⟩ := zip_words (ps := []) h4 h5
            exact ⟨_, .zip (p := []) (.inl ⟨rfl, rfl⟩) h2 (by simp at h7 ⊢; omega) (by simp at h7 ⊢; omega), h6⟩
          · cases h1
        · rw [pton6, pton6Start, if_pos rfl, List.head?_cons, if_neg (fun h => hd (Option.some.inj h))] at h
          cases h
    · rw [pton6_plain hc] at h
      obtain ⟨out, c', e, hx⟩ := finish_eq h
      rcases pton6Loop_some (c :: s) [] none [] 0 out c' .nil (by decide) e with
        ⟨ws, rfl, h2, h3⟩ | ⟨l, ps, q, qs, _, h2, h3, h4, rfl, h6⟩
      · rcases h2 with ⟨h2, _⟩ | h2
        · cases h2
        · rw [expand] at hx
          have hx := Option.some.inj hx
          rw [h3, List.nil_append] at hx
          refine ⟨ws, .full h2 ?_, hx.symm⟩
          have := congrArg List.length hx
          rw [groupBytes_length] at this
          simp at this
          omega
      · rw [h6, List.nil_append] at hx
        obtain ⟨h7, h8⟩ := expand_zip hx (by simp)
        obtain ⟨h9, h10⟩ := zip_words h7 h8
        rcases lead_groups h3 with ⟨rfl, _⟩ | ⟨p, rfl, hp⟩
        · rw [List.nil_append, List.nil_append] at h2
          exact absurd (List.cons.inj h2).1 hc
        · refine ⟨_, ?_, h9⟩
          rw [List.nil_append] at h2
          rw [h2]
          have := IPv6Text.zip (z := 8 - ps.length - qs.length) (.inr hp) h4 (by omega) (by omega)
          rw [show p ++ [':'] ++ ':' :: q = p ++ "::".toList ++ q by simp]
          exact this

/-! ### The converse -/

theorem pton6_hexNum {t : Str} {w : Nat} (h : HexNum t w) (hl : t.length ≤ 4) (src cur : Str) (out : List Byte) (colon : Option Nat) :
    pton6Loop (t ++ src) out colon cur 0 0 = pton6Loop src out colon cur t.length w := by
  induction h generalizing src with
  | nil => rfl
  | snoc h hc ih =>
    rename_i t v c d
    rw [List.length_append, List.length_singleton] at hl ⊢
    obtain ⟨hv, hd⟩ := hexVal_of hc
    have hlt := hexNum_lt h
    have hp : 16 ^ t.length ≤ 16 ^ 3 := Nat.pow_le_pow_right (by decide) (by omega)
    rw [List.append_assoc, ih (by omega)]
    show pton6Loop (c :: src) _ _ _ _ _ = _
    rw [pton6Loop, hv]
    dsimp only
    rw [if_neg (by omega), if_neg (by omega)]

theorem group_ne {t : Str} {w : Nat} (h : Group t w) : t ≠ [] := by
  intro e
  subst e
  exact absurd h.2.1 (by decide)

theorem last_ne {t : Str} {ws : List Nat} (h : LastGroups t ws) : t ≠ [] := by
  cases h with
  | one h => exact group_ne h
  | dots h => simp [dotted]
  | cons h _ => simp

theorem dotted_bytes {v : Nat} (h : v < 2 ^ 32) : ∃ b : Bytes4, dotted v = ntop4 b ∧ b.toList = groupBytes [v / 65536, v % 65536] := by
  refine ⟨#v[BitVec.ofNat 8 (v / 2 ^ 24), BitVec.ofNat 8 (v / 2 ^ 16), BitVec.ofNat 8 (v / 2 ^ 8), BitVec.ofNat 8 v], ?_, ?_⟩
  · rw [ntop4_dotted]
    congr 1
    show v = value [BitVec.ofNat 8 (v / 2 ^ 24), BitVec.ofNat 8 (v / 2 ^ 16), BitVec.ofNat 8 (v / 2 ^ 8), BitVec.ofNat 8 v]
    simp only [value_cons, value_nil, BitVec.toNat_ofNat, List.length_cons, List.length_nil]
    omega
  · show [BitVec.ofNat 8 (v / 2 ^ 24), BitVec.ofNat 8 (v / 2 ^ 16), BitVec.ofNat 8 (v / 2 ^ 8), BitVec.ofNat 8 v]
      = [BitVec.ofNat 8 (v / 65536 / 256), BitVec.ofNat 8 (v / 65536), BitVec.ofNat 8 (v % 65536 / 256), BitVec.ofNat 8 (v % 65536)]
    have e : ∀ a b : Nat, a % 256 = b % 256 → BitVec.ofNat 8 a = BitVec.ofNat 8 b := by
      intro a b h
      apply BitVec.eq_of_toNat_eq
      simpa using h
    rw [e (v / 2 ^ 24) (v / 65536 / 256) (by omega), e (v / 2 ^ 16) (v / 65536) (by omega), e (v / 2 ^ 8) (v % 65536 / 256) (by omega),
      e v (v % 65536) (by omega)]

theorem pton6_last {t : Str} {ws : List Nat} (h : LastGroups t ws) (out : List Byte) (colon : Option Nat)
    (ho : out.length + 2 * ws.length ≤ 16) : pton6Loop t out colon t 0 0 = some (out ++ groupBytes ws, colon) := by
  induction h generalizing out with
  | one h =>
    rename_i t w
    have e := pton6_hexNum h.1 h.2.2 [] t out colon
    rw [List.append_nil] at e
    rw [e, pton6Loop, if_pos (show t.length > 0 from h.2.1), if_neg (by simpa using ho)]
    simp [groupBytes]
  | dots h =>
    obtain ⟨b, e1, e2⟩ := dotted_bytes h
    rw [e1, ← e2]
    exact pton6_dotted b out colon ho
  | cons h hs ih =>
    rename_i t s w ws
    rw [pton6_hexNum h.1 h.2.2, pton6_sep h.2.1 (last_ne hs) (by simp only [List.length_cons] at ho; omega), ih]
    · simp [groupBytes]
    · simp only [List.length_cons, List.length_append, wordBytes, List.length_nil] at ho ⊢
      omega

theorem pton6_zipped {p : Str} {ps : List Nat} (h : Groups p ps) (q cur : Str) (out : List Byte) (ho : out.length + 2 * ps.length ≤ 16) :
    pton6Loop (p ++ ':' :: ':' :: q) out none cur 0 0 = pton6Loop q (out ++ groupBytes ps) (some (out ++ groupBytes ps).length) q 0 0 := by
  induction h generalizing out cur with
  | one h =>
    rw [pton6_hexNum h.1 h.2.2, pton6_sep h.2.1 (by simp) (by simpa using ho), pton6_colon]
    simp [groupBytes]
  | cons h hs ih =>
    rename_i t s w ws
    rw [List.append_assoc, List.cons_append, pton6_hexNum h.1 h.2.2, pton6_sep h.2.1 (by simp) (by simp only [List.length_cons] at ho; omega), ih]
    · simp [groupBytes]
    · simp only [List.length_cons, List.length_append, wordBytes, List.length_nil] at ho ⊢
      omega

theorem group_head {t : Str} {w : Nat} (h : Group t w) (rest : Str) : ∃ c s, t ++ rest = c :: s ∧ c ≠ ':' := by
  match t, h with
  | [], h => exact absurd h.2.1 (by decide)
  | c :: s, h =>
    refine ⟨c, s ++ rest, rfl, ?_⟩
    rintro rfl
    have : ∀ {t : Str} {v : Nat}, HexNum t v → ':' ∉ t := by
      intro t v h
      induction h with
      | nil => simp
      | snoc _ hc ih =>
        rw [List.mem_append, List.mem_singleton]
        rintro (h | rfl)
        · exact ih h
        · have := (hexVal_of hc).1
          rw [hexVal_colon] at this
          cases this
    exact this h.1 List.mem_cons_self

theorem last_head {t : Str} {ws : List Nat} (h : LastGroups t ws) : ∃ c s, t = c :: s ∧ c ≠ ':' := by
  cases h with
  | one h =>
    have := group_head h []
    rw [List.append_nil] at this
    exact this
  | dots h =>
    obtain ⟨b, e, _⟩ := dotted_bytes h
    match ht : ntop4 b, last_ne (.dots h), ntop4_chars b with
    | [], hne, _ => rw [e, ht] at hne; exact absurd rfl hne
    | c :: s, _, hch =>
      refine ⟨c, s, by rw [e, ht], ?_⟩
      rintro rfl
      have := hch ':' (by simp)
      revert this
      decide
  | cons h _ => exact group_head h _

theorem pton6_of_text {s : Str} {b : Bytes16} (h : IPv6Text s (words b)) : pton6 s = some b := by
  generalize hw : words b = ws at h
  have hb : b.toList = groupBytes ws := by rw [← hw, words_bytes]
  cases h with
  | full h hl =>
    obtain ⟨c, t, rfl, hc⟩ := last_head h
    rw [pton6_plain hc, pton6_last h [] none (by simp [hl]), List.nil_append, ← hb]
    exact finish_none
  | zip hp hq hz hl =>
    rename_i p q ps qs z
    have hq' : ∀ (out : List Byte) (colon : Option Nat), out.length + 2 * qs.length ≤ 16 →
        pton6Loop q out colon q 0 0 = some (out ++ groupBytes qs, colon) := by
      intro out colon ho
      rcases hq with ⟨rfl, rfl⟩ | hq
      · simp [pton6Loop, groupBytes]
      · exact pton6_last hq out colon ho
    have hb' : b.toList = groupBytes ps ++ (List.replicate (2 * z) 0 ++ groupBytes qs) := by
      rw [hb, groupBytes_append, groupBytes_append, groupBytes_zeros, List.append_assoc]
    rw [show p ++ "::".toList ++ q = p ++ ':' :: ':' :: q by simp]
    rcases hp with ⟨rfl, rfl⟩ | hp
    · rw [List.nil_append, pton6_colons, hq' _ _ (by simp; simp at hl; omega)]
      exact finish_some (pre := []) (by omega) hb'
    · have hh : ∃ c s, p ++ ':' :: ':' :: q = c :: s ∧ c ≠ ':' := by
        cases hp with
        | one h => exact group_head h _
        | cons h _ =>
          rw [List.append_assoc]
          exact group_head h _
      obtain ⟨c, s, e, hc⟩ := hh
      rw [e, pton6_plain hc, ← e, pton6_zipped hp _ _ _ (by simp; omega), hq' _ _ (by simp [groupBytes_length]; omega), List.nil_append]
      exact finish_some (by omega) hb'

/-- `inet_pton6()` accepts the texts of IPv6 addresses only, and writes their address. -/
theorem pton6_iff (s : Str) (b : Bytes16) : pton6 s = some b ↔ IPv6Text s (hextets (ip b)) := by
  rw [← words_hextets]
  constructor
  · intro h
    obtain ⟨ws, h1, h2⟩ := pton6_text h
    rw [← words_bytes] at h2
    rw [groupBytes_inj (words_lt b) (text6_word h1).2 h2]
    exact h1
  · exact pton6_of_text

end Verif.Inet
