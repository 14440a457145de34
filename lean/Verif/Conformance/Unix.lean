import Verif.Conformance.Env

/-!
# Conformance of the Unix addresses: tests of `catch_unix.cpp`

These are tests, see `Verif.Conformance.Env`.
-/

namespace Verif.Conformance

/-- libutf8, for ASCII texts. -/
def utf8 : UnixEnv :=
  { utf8 := fun s => if s.all (fun c => decide (c.toNat < 0x80)) then some (s.map Char.toNat) else none }

/-- What the tests look at: the kind of the address, its text, its URI, and whether all the bytes after the name are NUL. -/
structure View where
  file : Bool
  abstract : Bool
  unnamed : Bool
  text : Res Str
  uri : Res Str
  unlinked : Res (Option Str)
  clean : Bool
deriving DecidableEq

/-- The view of an address. -/
def view : Res UnixAddr → Option View
  | .ok a =>
    let n := match a.toStr with | .ok s => s.length | _ => 0
    some {
      file := a.isFile, abstract := a.isAbstract, unnamed := a.isUnnamed, text := a.toStr, uri := a.toUri,
      unlinked := a.unlinkName
      clean := a.getUn.family == AF_UNIX &&
        (a.getUn.path.toList.drop (if a.isAbstract then n + 1 else n)).all fun c => c == '\x00' }
  | _ => none

/-- A `sockaddr_un` with a given path. -/
def un (path : Str) (family : BitVec 16 := AF_UNIX) : SockaddrUn :=
  { family := family, path := Vector.ofFn fun i => path.getD i '\x00' }

/-- `set_uri()` on a new address. -/
def uri (s : String) : Res UnixAddr :=
  match UnixAddr.setUri utf8 s.toList UnixAddr.create with
  | (a, .ok ()) => .ok a
  | (_, .throw e) => .throw e
  | (_, .ub w) => .ub w

/-- The expected view of an unnamed address. -/
def isUnnamed : Option View :=
  some { file := false, abstract := false, unnamed := true, text := .ok [], uri := .ok "unix:".toList, unlinked := .ok none,
         clean := true }

/-- The expected view of a file. -/
def isFile (name uri : String) : Option View :=
  some { file := true, abstract := false, unnamed := false, text := .ok name.toList, uri := .ok uri.toList,
         unlinked := .ok (some name.toList), clean := true }

/-- The expected view of an abstract name. -/
def isAbstract (name uri : String) : Option View :=
  some { file := false, abstract := true, unnamed := false, text := .ok name.toList, uri := .ok uri.toList,
         unlinked := .ok none, clean := true }

example : view (.ok .create) = isUnnamed := by decide +kernel
example : view (UnixAddr.ofUn utf8 initUn) = isUnnamed := by decide +kernel
example : view (UnixAddr.ofString utf8 [] false) = isUnnamed := by decide +kernel
example : view (uri "unix:?unnamed") = isUnnamed := by decide +kernel
example : view (UnixAddr.ofUn utf8 (un "test3021".toList)) = isFile "test3021" "unix:test3021" := by decide +kernel
example : view (UnixAddr.ofString utf8 "test3021".toList false) = isFile "test3021" "unix:test3021" := by decide +kernel
example : view (UnixAddr.ofUn utf8 (un "/run/snapwebsites/sockets/test77".toList))
    = isFile "/run/snapwebsites/sockets/test77" "unix:///run/snapwebsites/sockets/test77" := by decide +kernel
example : view (uri "unix:/run/snapwebsites/sockets/test77?file")
    = isFile "/run/snapwebsites/sockets/test77" "unix:///run/snapwebsites/sockets/test77" := by decide +kernel
example : view (UnixAddr.ofUn utf8 (un ('\x00' :: "test3021".toList))) = isAbstract "test3021" "unix:test3021?abstract" := by
  decide +kernel
example : view (UnixAddr.ofString utf8 "/run/snapwebsites/sockets/test77".toList true)
    = isAbstract "/run/snapwebsites/sockets/test77" "unix:///run/snapwebsites/sockets/test77?abstract" := by decide +kernel

/-- The exception of a call. -/
def thrown {α : Type} : Res α → Option Exc
  | .throw e => some e
  | _ => none

-- the lengths
example : thrown (UnixAddr.ofString utf8 (List.replicate 107 'a') false) = none ∧
    thrown (UnixAddr.ofString utf8 (List.replicate 108 'a') false) = some .invalidArgument ∧
    thrown (UnixAddr.ofString utf8 (List.replicate 106 'a') true) = none ∧
    thrown (UnixAddr.ofString utf8 (List.replicate 107 'a') true) = some .invalidArgument ∧
    thrown (UnixAddr.ofUn utf8 (un (List.replicate 108 'a'))) = some .invalidArgument ∧
    thrown (UnixAddr.ofUn utf8 (un ('\x00' :: List.replicate 107 'a'))) = some .invalidArgument := by decide +kernel

-- the families and the names which are refused
example : thrown (UnixAddr.ofUn utf8 (un "test".toList AF_INET)) = some .invalidStructure ∧
    thrown (UnixAddr.ofString utf8 [] true) = some .invalidArgument := by decide +kernel
example : (["unix://", "://address", "bad(scheme)://address", "other;scheme://with-address", "unknown|scheme://address",
      "cu/run/snapwebsites/sockets", "unix:/run/snapwebsites/sockets?alexis", "_test:/run/snapwebsites/sockets?abstract",
      "cd:not-empty?unnamed"].map fun s => thrown (uri s))
    = List.replicate 9 (some .invalidArgument) := by decide +kernel
example : ((List.range 0x1F).map fun n => thrown (UnixAddr.ofString utf8 ['a', Char.ofNat (n + 1), 'b'] false))
    = List.replicate 0x1F (some .invalidArgument) := by decide +kernel
example : thrown (UnixAddr.ofString utf8 ['a', '\x7f', 'b'] false) = some .invalidArgument := by decide +kernel

-- the comparisons and the socket
example : (match UnixAddr.ofString utf8 "flowers".toList false, UnixAddr.ofString utf8 "oranges".toList false with
      | .ok a, .ok b =>
        [a.eq a, a.ne a, a.lt a, a.le a, a.gt a, a.ge a, a.eq b, a.ne b, a.lt b, a.le b, a.gt b, a.ge b, b.lt a, b.ge a]
      | _, _ => [])
    = [true, false, false, true, false, true, false, true, true, true, false, false, false, true] := by decide +kernel
example : (UnixAddr.setFromSocket utf8 .fails .create).2 = .ok false ∧
    (UnixAddr.setFromSocket utf8 (.gives (un [] AF_INET) 16) .create).2 = .ok false ∧
    UnixAddr.setFromSocket utf8 (.gives initUn 2) .create = (.create, .ok true) := by decide +kernel

end Verif.Conformance
