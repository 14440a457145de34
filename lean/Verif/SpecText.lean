import Verif.Spec

/-!
# Specification of the text form of addresses

Independent of the model: the text denoting a number, written with the digits of Lean's own library.
-/

namespace Verif.Spec

/-- A number in decimal. -/
def dec (n : Nat) : Str := Nat.toDigits 10 n

/-- A number in hexadecimal, lowercase, no leading zeros. -/
def hex (n : Nat) : Str := Nat.toDigits 16 n

/-- The dotted decimal form of a 32 bit number. -/
def dotted (v : Nat) : Str :=
  dec (v / 2 ^ 24 % 256) ++ '.' :: (dec (v / 2 ^ 16 % 256) ++ '.' :: (dec (v / 2 ^ 8 % 256) ++ '.' :: dec (v % 256)))

/-- The eight groups of 16 bits of a 128 bit number. -/
def hextets (v : Nat) : List Nat :=
  [v / 2 ^ 112 % 65536, v / 2 ^ 96 % 65536, v / 2 ^ 80 % 65536, v / 2 ^ 64 % 65536, v / 2 ^ 48 % 65536, v / 2 ^ 32 % 65536,
   v / 2 ^ 16 % 65536, v % 65536]

/-- Groups in hexadecimal separated by colons. -/
def colonHex (ws : List Nat) : Str := [':'].intercalate (ws.map hex)

/-- The canonical text of an IPv6 address, as RFC 5952 recommends it: lowercase digits, no leading zeros, the first of the
longest runs of zero groups compressed if it has at least two groups, dotted decimal for the addresses which hold an IPv4
address. -/
inductive Text6 (v : Nat) : Str → Prop
  /-- All the groups: no two groups of zeros in a row. -/
  | full (h : ∀ pre post, hextets v ≠ pre ++ 0 :: 0 :: post) : Text6 v (colonHex (hextets v))
  /-- A run of at least two groups of zeros written as `::`; no run is longer, no run which comes before is as long. -/
  | zip (pre post : List Nat) (z : Nat) (hz : 2 ≤ z) (h : hextets v = pre ++ List.replicate z 0 ++ post)
      (best : ∀ pre' z' post', hextets v = pre' ++ List.replicate z' 0 ++ post' →
        z' ≤ z ∧ (z' = z → pre.length ≤ pre'.length))
      (hc : ¬ (2 ^ 16 ≤ v ∧ v < 2 ^ 32)) (hm : ¬ isV4 v) : Text6 v (colonHex pre ++ "::".toList ++ colonHex post)
  /-- The last 32 bits in dotted decimal: IPv4-compatible addresses. -/
  | compat (h : 2 ^ 16 ≤ v ∧ v < 2 ^ 32) : Text6 v ("::".toList ++ dotted v)
  /-- The last 32 bits in dotted decimal: IPv4-mapped addresses. -/
  | mapped (h : isV4 v) : Text6 v ("::ffff:".toList ++ dotted (v % 2 ^ 32))

end Verif.Spec
