import Verif.Model.Ostream

/-!
# What the stream manipulators are expected to do

A program with streams, where every stream has its own settings by value.
-/

namespace Verif.Spec

open Ostream

/-- The streams which exist, with their mode and separator. -/
abbrev Streams := Nat → Option (BitVec 32 × Str)

/-- One operation; `none` when the program uses a stream which does not exist, or creates one which does. -/
def streamOp (m : Streams) : Op → Option Streams
  | .create s => if m s = none then some fun x => if x = s then some (STRING_IP_ALL, [',']) else m x else none
  | .setMode s mode => (m s).map fun i => fun x => if x = s then some (mode, i.2) else m x
  | .setSep s sep => (m s).map fun i => fun x => if x = s then some (i.1, sep) else m x
  | .copyfmt dst src =>
    match m dst, m src with
    | some _, some i => some fun x => if x = dst then some i else m x
    | _, _ => none
  | .swap a b =>
    match m a, m b with
    | some i, some j => some fun x => if x = b then some i else if x = a then some j else m x
    | _, _ => none
  | .destroy s => (m s).map fun _ => fun x => if x = s then none else m x

/-- A history. -/
def streamOps (m : Streams) : List Op → Option Streams
  | [] => some m
  | op :: ops => (streamOp m op).bind fun m => streamOps m ops

/-- The stream points to the block. -/
def Owns (w : World) (s p : Nat) : Prop := ∃ st, w.streams s = some st ∧ st.pword = some p

end Verif.Spec
