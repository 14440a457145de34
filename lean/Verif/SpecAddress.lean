import Verif.SpecText

/-!
# Specification: the texts which write an address

Independent of the model: the texts of RFC 4291 section 2.2 (with hexadecimal digits of both cases, leading zeros within four digits,
`::` at any place and the last two groups in dotted decimal), and the dotted decimal texts without leading zeros.
-/

namespace Verif.Spec

/-- A hexadecimal digit and its value. -/
def HexDigit (c : Char) (d : Nat) : Prop := "0123456789abcdef".toList[d]? = some c ∨ "0123456789ABCDEF".toList[d]? = some c

/-- Hexadecimal digits and the number they write. -/
inductive HexNum : Str → Nat → Prop
  | nil : HexNum [] 0
  | snoc {t : Str} {v : Nat} {c : Char} {d : Nat} (h : HexNum t v) (hc : HexDigit c d) : HexNum (t ++ [c]) (v * 16 + d)

/-- A group: one to four digits. -/
def Group (t : Str) (w : Nat) : Prop := HexNum t w ∧ 1 ≤ t.length ∧ t.length ≤ 4

/-- Groups separated by colons. -/
inductive Groups : Str → List Nat → Prop
  | one {t : Str} {w : Nat} (h : Group t w) : Groups t [w]
  | cons {t s : Str} {w : Nat} {ws : List Nat} (h : Group t w) (hs : Groups s ws) : Groups (t ++ ':' :: s) (w :: ws)

/-- Groups separated by colons, of which the last two may be in dotted decimal. -/
inductive LastGroups : Str → List Nat → Prop
  | one {t : Str} {w : Nat} (h : Group t w) : LastGroups t [w]
  | dots {v : Nat} (h : v < 2 ^ 32) : LastGroups (dotted v) [v / 65536, v % 65536]
  | cons {t s : Str} {w : Nat} {ws : List Nat} (h : Group t w) (hs : LastGroups s ws) : LastGroups (t ++ ':' :: s) (w :: ws)

/-- The texts of IPv6 addresses, with the eight groups they write. -/
inductive IPv6Text : Str → List Nat → Prop
  /-- All the groups. -/
  | full {t : Str} {ws : List Nat} (h : LastGroups t ws) (hl : ws.length = 8) : IPv6Text t ws
  /-- `::` in place of at least one group of zeros. -/
  | zip {p q : Str} {ps qs : List Nat} {z : Nat} (hp : p = [] ∧ ps = [] ∨ Groups p ps) (hq : q = [] ∧ qs = [] ∨ LastGroups q qs)
      (hz : 1 ≤ z) (hl : ps.length + z + qs.length = 8) : IPv6Text (p ++ "::".toList ++ q) (ps ++ List.replicate z 0 ++ qs)

/-- The address which a text writes, as a number of 128 bits: that of IPv4 addresses is the one of the mapped address. -/
def AddressOf (t : Str) (n : Nat) : Prop :=
  (∃ v, v < 2 ^ 32 ∧ t = dotted v ∧ n = 0xFFFF00000000 + v) ∨ (n < 2 ^ 128 ∧ IPv6Text t (hextets n))

end Verif.Spec
