import Verif.SpecAddress

/-!
# Specification: the texts of networks
-/

namespace Verif.Spec

/-- The texts of networks: an address followed by the number of its bits, or an address alone; IPv6 addresses may be in brackets. The network is made of the numbers of
which the first `k` bits of 128 are those of `n`; IPv4 addresses are in `::ffff:0:0/96`. -/
inductive Network : (t : Str) → (n k : Nat) → Prop
  | v4 {v : Nat} {s : Str} (hv : v < 2 ^ 32) (hs : s ≠ []) (hd : ∀ c ∈ s, c.isDigit = true) (hm : Nat.ofDigitChars 10 s 0 ≤ 32) :
      Network (dotted v ++ '/' :: s) (0xFFFF00000000 + v) (96 + Nat.ofDigitChars 10 s 0)
  | v6 {u s : Str} {n : Nat} (hn : n < 2 ^ 128) (hu : IPv6Text u (hextets n)) (hs : s ≠ []) (hd : ∀ c ∈ s, c.isDigit = true)
      (hm : Nat.ofDigitChars 10 s 0 ≤ 128) : Network (u ++ '/' :: s) n (Nat.ofDigitChars 10 s 0)
  | bracket {u s : Str} {n : Nat} (hn : n < 2 ^ 128) (hu : IPv6Text u (hextets n)) (hs : s ≠ []) (hd : ∀ c ∈ s, c.isDigit = true)
      (hm : Nat.ofDigitChars 10 s 0 ≤ 128) : Network (('[' :: u ++ [']']) ++ '/' :: s) n (Nat.ofDigitChars 10 s 0)
  | hostBracket {u : Str} {n : Nat} (hn : n < 2 ^ 128) (hu : IPv6Text u (hextets n)) : Network ('[' :: u ++ [']']) n 128
  | host {u : Str} {n : Nat} (h : AddressOf u n) : Network u n 128

/-- `x` is in the network of `n` and `k`. -/
def InNetwork (x n k : Nat) : Prop := x / 2 ^ (128 - k) = n / 2 ^ (128 - k)

end Verif.Spec
