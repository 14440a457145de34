/-!
# Outcomes of a C++ call

`Res` is what calling a function of the library can lead to. Undefined behaviour is a separate outcome, it is never
confused with a normal return or with an exception.
-/

namespace Verif

/-- The exception classes of `libaddr/exception.h:41-52`, plus the standard ones which the code lets through. -/
inductive Exc
  | logicError
  | outOfRange
  | ioError
  | invalidArgument
  | invalidState
  | invalidStructure
  | unexpectedError
  | unexpectedMask
  | unsupportedAsRange
  /-- `std::out_of_range` thrown by `std::string::substr()`. -/
  | stdOutOfRange
  /-- `std::invalid_argument` thrown by `std::stoi()` and friends. -/
  | stdInvalidArgument
  /-- `libutf8::libutf8_exception_decoding`. -/
  | utf8Decoding
  deriving DecidableEq, Repr

/-- Reasons for undefined behaviour met in the model. -/
inductive UB
  | signedOverflow
  | nullDereference
  | outOfBounds
  | badComparator
  | nullString
  /-- A failing `assert()`: the process is aborted. -/
  | assertFailed
  /-- A pointer to a block which was freed, or an object which was destroyed. -/
  | danglingPointer
  deriving DecidableEq, Repr

/-- Outcome of a call: a value, an exception or undefined behaviour. -/
inductive Res (α : Type)
  | ok (a : α)
  | throw (e : Exc)
  | ub (why : UB)
  deriving DecidableEq, Repr

namespace Res

/-- Sequencing: an exception or undefined behaviour ends the computation. -/
def bind {α β : Type} : Res α → (α → Res β) → Res β
  | ok a, f => f a
  | throw e, _ => throw e
  | ub w, _ => ub w

instance : Monad Res where
  pure := Res.ok
  bind := Res.bind

/-- `true` when the call returned normally. -/
def isOk {α : Type} : Res α → Bool
  | ok _ => true
  | _ => false

/-- `true` when the call ended with an exception. -/
def isThrow {α : Type} : Res α → Bool
  | throw _ => true
  | _ => false

@[simp] theorem bind_ok {α β : Type} (a : α) (f : α → Res β) : (Res.ok a >>= f) = f a := rfl
@[simp] theorem bind_throw {α β : Type} (e : Exc) (f : α → Res β) : ((Res.throw e : Res α) >>= f) = Res.throw e := rfl
@[simp] theorem bind_ub {α β : Type} (w : UB) (f : α → Res β) : ((Res.ub w : Res α) >>= f) = Res.ub w := rfl
@[simp] theorem pure_eq {α : Type} (a : α) : (pure a : Res α) = Res.ok a := rfl
@[simp] theorem isOk_ok {α : Type} (a : α) : (Res.ok a).isOk = true := rfl
@[simp] theorem isOk_throw {α : Type} (e : Exc) : (Res.throw e : Res α).isOk = false := rfl
@[simp] theorem isOk_ub {α : Type} (w : UB) : (Res.ub w : Res α).isOk = false := rfl
@[simp] theorem isThrow_ok {α : Type} (a : α) : (Res.ok a).isThrow = false := rfl
@[simp] theorem isThrow_throw {α : Type} (e : Exc) : (Res.throw e : Res α).isThrow = true := rfl
@[simp] theorem isThrow_ub {α : Type} (w : UB) : (Res.ub w : Res α).isThrow = false := rfl

end Res

/-- A member function which may change the object `σ` it is called on, even when it ends with an exception. -/
abbrev SM (σ α : Type) := σ → σ × Res α

/-- Sequencing of member function calls: the changes made before an exception stay. -/
def SM.bind {σ α β : Type} (m : SM σ α) (f : α → SM σ β) : SM σ β := fun s =>
  match m s with
  | (s', .ok a) => f a s'
  | (s', .throw e) => (s', .throw e)
  | (s', .ub w) => (s', .ub w)

/-- Do nothing and return a value. -/
def SM.pure {σ α : Type} (a : α) : SM σ α := fun s => (s, .ok a)

/-- One byte. -/
abbrev Byte := BitVec 8

/-- The sixteen bytes of an `in6_addr` or of a mask, in memory (network) order. -/
abbrev Bytes16 := Vector Byte 16

/-- The four bytes of an `in_addr`, in memory (network) order. -/
abbrev Bytes4 := Vector Byte 4

/-- A `std::string`: each `Char` stands for one byte. -/
abbrev Str := List Char

/-- The `int` values of the platform. -/
def IsCInt (n : Int) : Prop := -2147483648 ≤ n ∧ n ≤ 2147483647

instance (n : Int) : Decidable (IsCInt n) := inferInstanceAs (Decidable (_ ∧ _))

/-- `c_str()` as seen by a C function: the string up to its first NUL byte. -/
def cstr (s : Str) : Str := s.takeWhile (· ≠ '\x00')

end Verif
