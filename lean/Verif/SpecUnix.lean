import Verif.Model.Unix

/-!
# Specification of the Unix addresses

What a Unix address is for a user: unnamed, a file or an abstract name; and which names are accepted.
-/

namespace Verif

/-- What a Unix address stands for. -/
inductive UnixName
  | unnamed
  | file (name : Str)
  | abstract (name : Str)
  deriving DecidableEq

namespace Spec

/-- Remove each slash which another slash or the end of the path follows. -/
def squeeze : Str → Str
  | [] => []
  | c :: s => if c = '/' ∧ (s = [] ∨ s.head? = some '/') then squeeze s else c :: squeeze s

/-- A path without useless slashes. -/
def Canonical (s : Str) : Prop := s ≠ [] ∧ ¬ ['/', '/'] <:+: s ∧ s.getLast? ≠ some '/'

/-- The controls C0, DEL and C1 of Unicode. -/
def IsControl (c : Nat) : Prop := c < 0x20 ∨ c = 0x7F ∨ (0x80 ≤ c ∧ c < 0xA0)

/-- A name which an address of this size can have. -/
def LegalName (utf8 : Str → Option (List Nat)) (max : Nat) (name : Str) : Prop :=
  Canonical name ∧ name.length ≤ max ∧ ∃ l, utf8 name = some l ∧ ∀ c ∈ l, ¬ IsControl c

/-- The decoder keeps the ASCII characters. -/
def Utf8Ascii (utf8 : Str → Option (List Nat)) : Prop :=
  ∀ s l, utf8 s = some l → ∀ c ∈ s, c.toNat < 0x80 → c.toNat ∈ l

/-- A scheme as in RFC 3986. -/
def SchemeOk (s : Str) : Prop :=
  ∃ c t, s = c :: t ∧ c.isAlpha = true ∧ ∀ d ∈ t, d.isAlphanum = true ∨ d = '+' ∨ d = '-' ∨ d = '.'

end Spec

namespace UnixName

/-- The name, empty when unnamed. -/
def text : UnixName → Str
  | unnamed => []
  | file n => n
  | abstract n => n

/-- The 108 bytes of `sun_path`: the rest is filled with NUL. -/
def image : UnixName → List Char
  | unnamed => List.replicate 108 '\x00'
  | file n => n ++ List.replicate (108 - n.length) '\x00'
  | abstract n => '\x00' :: n ++ List.replicate (107 - n.length) '\x00'

/-- The names which an address can have; there is always a NUL at the end of `sun_path`. -/
def Legal (utf8 : Str → Option (List Nat)) : UnixName → Prop
  | unnamed => True
  | file n => Spec.LegalName utf8 107 n
  | abstract n => Spec.LegalName utf8 106 n

/-- Unnamed addresses come first, then abstract ones, then files. -/
def rank : UnixName → Nat
  | unnamed => 0
  | abstract _ => 1
  | file _ => 2

/-- The order of the addresses: by rank, then by the bytes of the name. -/
def Before (x y : UnixName) : Prop :=
  x.rank < y.rank ∨ (x.rank = y.rank ∧ x.text.map Char.toNat < y.text.map Char.toNat)

end UnixName

/-- What the public functions say about an address. -/
structure UnixAddr.Shows (a : UnixAddr) (n : UnixName) : Prop where
  family : a.getUn.family = AF_UNIX
  path : a.getUn.path.toList = n.image
  isUnnamed : a.isUnnamed = true ↔ n = .unnamed
  isFile : a.isFile = true ↔ n = .file n.text
  isAbstract : a.isAbstract = true ↔ n = .abstract n.text
  text : a.toStr = .ok n.text
  unlink : a.unlinkName = .ok (if n = .file n.text then some n.text else none)

end Verif
