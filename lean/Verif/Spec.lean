import Verif.Basic

/-!
# Specification vocabulary

Nothing here mentions the model of the code. An address is the number its sixteen bytes write in base 256, a range is
a set of numbers, a CIDR block is an interval of numbers.
-/

namespace Verif.Spec

/-- Number written by a list of bytes in base 256, most significant byte first. -/
def value (l : List Byte) : Nat := l.foldl (fun n b => 256 * n + b.toNat) 0

/-- Numeric value of an IPv6 address (or of a mask). -/
def ip (a : Bytes16) : Nat := value a.toList

/-- Numeric value of an IPv4 address. -/
def ip4 (a : Bytes4) : Nat := value a.toList

/-- The largest address, `ffff:ffff:...:ffff`. -/
def maxIp : Nat := 2 ^ 128 - 1

/-- The number `n` restricted to the address space. -/
def clamp (n : Int) : Nat := if n < 0 then 0 else if n > maxIp then maxIp else n.toNat

/-- Numeric value of the mask made of `n` ones followed by `128 - n` zeros. -/
def prefixMask (n : Nat) : Nat := 2 ^ 128 - 2 ^ (128 - n)

/-- First address of the aligned block of size `2^(128-n)` which holds `v`. -/
def blockFirst (v n : Nat) : Nat := v / 2 ^ (128 - n) * 2 ^ (128 - n)

/-- Last address of the aligned block of size `2^(128-n)` which holds `v`. -/
def blockLast (v n : Nat) : Nat := v / 2 ^ (128 - n) * 2 ^ (128 - n) + (2 ^ (128 - n) - 1)

/-- `v` lies in the IPv6 block `base/n`, base being a number. -/
def inBlock (v base n : Nat) : Prop := base ≤ v ∧ v < base + 2 ^ (128 - n)

instance (v base n : Nat) : Decidable (inBlock v base n) := inferInstanceAs (Decidable (_ ∧ _))

/-- The IPv4 addresses are the block `::ffff:0:0/96`. -/
def isV4 (v : Nat) : Prop := inBlock v 0xffff00000000 96

instance (v : Nat) : Decidable (isV4 v) := inferInstanceAs (Decidable (inBlock ..))

/-- Number of the IPv4 address `a.b.c.d` in its IPv6 form `::ffff:a.b.c.d`. -/
def v4 (a b c d : Nat) : Nat := 0xffff00000000 + ((a * 256 + b) * 256 + c) * 256 + d

/-! ## Network blocks

The table documented in `get_network_type()`, each entry being an interval of numbers. -/

/-- The sixteen most significant bits of an address. -/
def top16 (v : Nat) : Nat := v / 2 ^ 112

/-- `ffx<d>::/16` for any hexadecimal digit `x`. -/
def inScope (v d : Nat) : Prop := inBlock v (0xff00 * 2 ^ 112) 8 ∧ top16 v % 16 = d

instance (v d : Nat) : Decidable (inScope v d) := inferInstanceAs (Decidable (_ ∧ _))

/-- 10.0.0.0/8, 172.16.0.0/12, 192.168.0.0/16, fd00::/8. -/
def isPrivate (v : Nat) : Prop :=
  inBlock v (v4 10 0 0 0) 104 ∨ inBlock v (v4 172 16 0 0) 108 ∨ inBlock v (v4 192 168 0 0) 112
    ∨ inBlock v (0xfd00 * 2 ^ 112) 8

/-- 100.64.0.0/10. -/
def isCarrier (v : Nat) : Prop := inBlock v (v4 100 64 0 0) 106

/-- 169.254.0.0/16, fe80::/10, ffx2::/16. -/
def isLinkLocal (v : Nat) : Prop := inBlock v (v4 169 254 0 0) 112 ∨ inBlock v (0xfe80 * 2 ^ 112) 10 ∨ inScope v 2

/-- 127.0.0.0/8, ::1, ffx1::/16. -/
def isLoopback (v : Nat) : Prop := inBlock v (v4 127 0 0 0) 104 ∨ v = 1 ∨ inScope v 1

/-- 224.0.0.0/4, ff00::/8 without the scopes 1 and 2. -/
def isMulticast (v : Nat) : Prop :=
  inBlock v (v4 224 0 0 0) 100 ∨ (inBlock v (0xff00 * 2 ^ 112) 8 ∧ ¬ inScope v 1 ∧ ¬ inScope v 2)

/-- 0.0.0.0 and ::. -/
def isAny (v : Nat) : Prop := v = v4 0 0 0 0 ∨ v = 0

/-- 2001:db8::/32 and 3fff::/20. -/
def isDocumentation (v : Nat) : Prop := inBlock v (0x20010db8 * 2 ^ 96) 32 ∨ inBlock v (0x3fff * 2 ^ 112) 20

end Verif.Spec
