import Verif.Model.AddrText

/-!
# Model of the stream manipulators of `libaddr/addr.h`

The blocks allocated with `new` are a partial function from pointers to settings; `next` is the next pointer which the allocator
gives. A stream has the entry of `pword()` of the library and the number of times its callback is registered. Streams are
numbers.
-/

namespace Verif

namespace Ostream

/-- `_ostream_info`, addr.h:273-277. -/
structure Info where
  mode : BitVec 32 := STRING_IP_ALL
  sep : Str := ",".toList
  deriving DecidableEq

/-- The part of a `std::ios_base` which the library uses. -/
structure Stream where
  pword : Option Nat
  callbacks : Nat
  deriving DecidableEq

/-- The heap and the streams. -/
structure World where
  heap : Nat → Option Info
  next : Nat
  streams : Nat → Option Stream

/-- No stream, nothing allocated. -/
def World.init : World := { heap := fun _ => none, next := 0, streams := fun _ => none }

/-- A new value at one place. -/
def update {β : Type} (f : Nat → Option β) (k : Nat) (v : Option β) : Nat → Option β := fun x => if x = k then v else f x

/-- `new _ostream_info(info)`. -/
def alloc (w : World) (info : Info) : World × Nat := ({ w with heap := update w.heap w.next (some info), next := w.next + 1 }, w.next)

/-- `*p`. -/
def deref (w : World) (p : Nat) : Res Info :=
  match w.heap p with
  | some info => .ok info
  | none => .ub .danglingPointer

/-- The stream. -/
def stream (w : World) (s : Nat) : Res Stream :=
  match w.streams s with
  | some st => .ok st
  | none => .ub .danglingPointer

/-- `basic_stream_event_callback()` for `erase_event`, addr.h:365-368. `delete nullptr` does nothing. -/
def eraseEvent (s : Nat) (w : World) : Res World :=
  stream w s >>= fun st =>
  (match st.pword with
    | some p => deref w p >>= fun _ => Res.ok { w with heap := update w.heap p none }
    | none => .ok w) >>= fun w =>
  .ok { w with streams := update w.streams s (some { st with pword := none }) }

/-- `basic_stream_event_callback()` for `copyfmt_event`, addr.h:370-378. -/
def copyEvent (s : Nat) (w : World) : Res World :=
  stream w s >>= fun st =>
  match st.pword with
  | some p =>
    deref w p >>= fun info =>
    let (w, q) := alloc w info
    .ok { w with streams := update w.streams s (some { st with pword := some q }) }
  | none => .ok w

/-- The callbacks of a stream, one after the other. -/
def times (f : World → Res World) : Nat → World → Res World
  | 0, w => .ok w
  | n + 1, w => f w >>= times f n

/-- The settings of the stream, allocated and with the callback registered if there were none, addr.h:400-407 and 426-433. -/
def ensure (w : World) (s : Nat) : Res (World × Nat) :=
  stream w s >>= fun st =>
  match st.pword with
  | some p => .ok (w, p)
  | none =>
    let (w, p) := alloc w {}
    .ok ({ w with streams := update w.streams s (some { pword := some p, callbacks := st.callbacks + 1 }) }, p)

/-- `out << setaddrmode(mode)`, addr.h:396-410. -/
def setMode (w : World) (s : Nat) (mode : BitVec 32) : Res World :=
  ensure w s >>= fun (w, p) =>
  deref w p >>= fun info =>
  .ok { w with heap := update w.heap p (some { info with mode := mode }) }

/-- `out << setaddrsep(sep)`, addr.h:422-436. -/
def setSep (w : World) (s : Nat) (sep : Str) : Res World :=
  ensure w s >>= fun (w, p) =>
  deref w p >>= fun info =>
  .ok { w with heap := update w.heap p (some { info with sep := sep }) }

/-- `dst.copyfmt(src)` (C++20 29.5.5.3): nothing for the same stream; otherwise the callbacks of the destination are called with
`erase_event`, the words and the callbacks are replaced by those of the source, and these are called with
`copyfmt_event`. -/
def copyfmt (w : World) (dst src : Nat) : Res World :=
  stream w dst >>= fun d =>
  stream w src >>= fun s =>
  if dst = src then .ok w
  else
    times (eraseEvent dst) d.callbacks w >>= fun w =>
    times (copyEvent dst) s.callbacks { w with streams := update w.streams dst (some s) }

/-- The destructor of a stream: the callbacks are called with `erase_event`. -/
def destroy (w : World) (s : Nat) : Res World :=
  stream w s >>= fun st =>
  times (eraseEvent s) st.callbacks w >>= fun w =>
  .ok { w with streams := update w.streams s none }

/-- `a.swap(b)` of two streams (C++20 29.5.5.3): the words and the callbacks are exchanged, no callback is called. -/
def swap (w : World) (a b : Nat) : Res World :=
  stream w a >>= fun x =>
  stream w b >>= fun y =>
  .ok { w with streams := update (update w.streams a (some y)) b (some x) }

/-- What a program does with streams. -/
inductive Op
  | create (s : Nat)
  | setMode (s : Nat) (mode : BitVec 32)
  | setSep (s : Nat) (sep : Str)
  | copyfmt (dst src : Nat)
  | swap (a b : Nat)
  | destroy (s : Nat)

/-- One operation. -/
def Op.run (w : World) : Op → Res World
  | .create s => .ok { w with streams := update w.streams s (some { pword := none, callbacks := 0 }) }
  | .setMode s mode => Ostream.setMode w s mode
  | .setSep s sep => Ostream.setSep w s sep
  | .copyfmt dst src => Ostream.copyfmt w dst src
  | .swap a b => Ostream.swap w a b
  | .destroy s => Ostream.destroy w s

/-- A history. -/
def runAll (w : World) : List Op → Res World
  | [] => .ok w
  | op :: ops => op.run w >>= fun w => runAll w ops

/-- The settings read by the output operators, `nullptr` being the default ones. -/
def info (w : World) (s : Nat) : Res Info :=
  stream w s >>= fun st =>
  match st.pword with
  | some p => deref w p
  | none => .ok {}

/-- `out << address`, addr.h:448-462: the text which is written. -/
def printAddr (db : NetDb) (w : World) (s : Nat) (a : Addr) : Res Str :=
  info w s >>= fun i => a.toIpv4or6String db i.mode

/-- The loop of `out << addresses`, addr.h:479-491. -/
def printLoop (db : NetDb) (w : World) (s : Nat) (sep : Str) : (first : Bool) → List Addr → Res Str
  | _, [] => .ok []
  | first, a :: l =>
    printAddr db w s a >>= fun t =>
    printLoop db w s sep false l >>= fun rest =>
    .ok ((if first then [] else sep) ++ t ++ rest)

/-- `out << addresses`, addr.h:465-493. -/
def printAddrs (db : NetDb) (w : World) (s : Nat) (l : List Addr) : Res Str :=
  info w s >>= fun i => printLoop db w s i.sep true l

/-- `out << range`, addr_range.h:97-111. -/
def printRange (db : NetDb) (w : World) (s : Nat) (r : Range) : Res Str :=
  info w s >>= fun i => r.toStr db i.mode

/-- `out << ranges`, addr_range.h:114-131; the default arguments of `to_string()` (addr_range.h:71-74) are the default settings. -/
def printRanges (db : NetDb) (w : World) (s : Nat) (l : List Range) : Res Str :=
  info w s >>= fun i => Range.toStrAll db i.mode i.sep l true

end Ostream

end Verif
