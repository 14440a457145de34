import Verif.Model.Parser

/-!
# Model of `libaddr/addr_unix.cpp`

The bytes of `sun_path` are `Char`, as those of a `std::string`. The decoder of libutf8 is a parameter.
-/

namespace Verif

/-- `AF_UNIX` on Linux. -/
def AF_UNIX : BitVec 16 := 1

/-- `struct sockaddr_un` on Linux: the family (two bytes) and the 108 bytes of `sun_path`. -/
structure SockaddrUn where
  family : BitVec 16
  path : Vector Char 108
  deriving DecidableEq

/-- `init_un()`, addr_unix.h:74-79. -/
def initUn : SockaddrUn := { family := AF_UNIX, path := Vector.replicate 108 '\x00' }

/-- `memcpy()` and `memset()`: write the bytes `s` from the position `pos` on. -/
def blit (v : Vector Char 108) (pos : Nat) (s : Str) : Res (Vector Char 108) :=
  if h : pos + s.length ≤ 108 then
    .ok ⟨(v.toList.take pos ++ s ++ v.toList.drop (pos + s.length)).toArray, by simp; omega⟩
  else .ub .outOfBounds

/-- The C string which starts at the position `pos`. -/
def readCString (v : Vector Char 108) (pos : Nat) : Res Str :=
  if '\x00' ∈ v.toList.drop pos then .ok (cstr (v.toList.drop pos)) else .ub .outOfBounds

/-- What `getsockname()` did: nothing (it failed), or it filled the `sockaddr_un` and its length. -/
inductive SockName
  | fails
  | gives (un : SockaddrUn) (length : Nat)

/-- What is outside of the library: `libutf8::to_u32string()`, `none` when it throws. -/
structure UnixEnv where
  utf8 : Str → Option (List Nat)

/-- An `addr_unix` object, addr_unix.h:127-130. -/
structure UnixAddr where
  scheme : Str
  address : SockaddrUn
  mode : Int
  group : Str
  deriving DecidableEq

namespace UnixAddr

/-- `addr_unix::addr_unix()`, addr_unix.cpp:81-83 with the initializers of addr_unix.h:127-130. -/
def create : UnixAddr := { scheme := [], address := initUn, mode := 0o600, group := [] }

/-- `snapdev::tokenize_string(segments, path, "/", true)`: the parts between slashes, without the empty ones. -/
def tokens : Str → (cur : Str) → List Str
  | [], cur => if cur = [] then [] else [cur]
  | c :: s, cur =>
    if c = '/' then (if cur = [] then tokens s [] else cur :: tokens s [])
    else tokens s (cur ++ [c])

/-- A control, addr_unix.cpp:986-987. -/
def isControl (c : Nat) : Bool := c ≤ 0x1F || (c ≥ 0x7F && c ≤ 0x9F)

/-- `addr_unix::verify_path()`, addr_unix.cpp:950-1003. -/
def verifyPath (env : UnixEnv) (path : Str) (abstract : Bool) : Res Str :=
  if path = [] then .throw .invalidArgument
  else
    let maxLength := if abstract then 108 - 1 else 108
    let p := ['/'].intercalate (tokens path [])
    let p := if path.head? = some '/' then '/' :: p else p
    if p.length ≥ maxLength then .throw .invalidArgument
    else
      match env.utf8 p with
      | none => .throw .utf8Decoding
      | some u32 =>
        if u32.any isControl then .throw .invalidArgument
        else if p = ['/'] then .throw .invalidArgument
        else .ok p

/-- `addr_unix::set_scheme()`, addr_unix.cpp:141-144. -/
def setScheme (scheme : Str) : SM UnixAddr Unit := fun a =>
  ({ a with scheme := if scheme = "unix".toList then [] else scheme }, .ok ())

/-- Write in `f_address.sun_path`. -/
def write (pos : Nat) (s : Str) : SM UnixAddr Unit := fun a =>
  match blit a.address.path pos s with
  | .ok v => ({ a with address := { a.address with path := v } }, .ok ())
  | .throw e => (a, .throw e)
  | .ub w => (a, .ub w)

/-- `addr_unix::make_unnamed()`, addr_unix.cpp:221-224. -/
def makeUnnamed : SM UnixAddr Unit := write 0 (List.replicate 108 '\x00')

/-- `addr_unix::set_file()`, addr_unix.cpp:240-254. -/
def setFile (env : UnixEnv) (file : Str) : SM UnixAddr Unit := fun a =>
  match verifyPath env file false with
  | .ok address =>
    SM.bind (write 0 address)
      (fun _ => if address.length < 108 then write address.length (List.replicate (108 - address.length) '\x00') else SM.pure ()) a
  | .throw e => (a, .throw e)
  | .ub w => (a, .ub w)

/-- `addr_unix::set_mode()`, addr_unix.cpp:283-286. -/
def setMode (mode : Int) : SM UnixAddr Unit := fun a => ({ a with mode := mode }, .ok ())

/-- `addr_unix::set_group()`, addr_unix.cpp:301-304. -/
def setGroup (group : Str) : SM UnixAddr Unit := fun a => ({ a with group := group }, .ok ())

/-- What `strncpy(dst, src, n)` writes. -/
def strncpy (src : Str) (n : Nat) : Str := (cstr src).take n ++ List.replicate (n - (cstr src).length) '\x00'

/-- `addr_unix::set_abstract()`, addr_unix.cpp:339-354. -/
def setAbstract (env : UnixEnv) (abstract : Str) : SM UnixAddr Unit := fun a =>
  match verifyPath env abstract true with
  | .ok address =>
    SM.bind (write 0 ['\x00'])
      (fun _ => SM.bind (write 1 (strncpy address (108 - 1)))
        (fun _ => if address.length < 108 - 2 then
            write (address.length + 2) (List.replicate (108 - address.length - 2) '\x00') else SM.pure ())) a
  | .throw e => (a, .throw e)
  | .ub w => (a, .ub w)

/-- The test of the scheme, addr_unix.cpp:435-438: is the character refused? -/
def badSchemeChar (c : Char) (first : Bool) : Bool :=
  (c.toNat < 'a'.toNat || c.toNat > 'z'.toNat) && (c.toNat < 'A'.toNat || c.toNat > 'Z'.toNat)
    && (first || ((c.toNat < '0'.toNat || c.toNat > '9'.toNat) && c ≠ '+' && c ≠ '-' && c ≠ '.'))

/-- The loop over the characters of the scheme, addr_unix.cpp:432-449. -/
def badScheme : Str → (first : Bool) → Bool
  | [], _ => false
  | c :: s, first => badSchemeChar c first || badScheme s false

/-- `addr_unix::set_uri()`, addr_unix.cpp:411-527. -/
def setUri (env : UnixEnv) (uri : Str) : SM UnixAddr Unit := fun a =>
  match Parser.splitFirst ':' uri with
  | none => (a, .throw .invalidArgument)
  | some (scheme, rest) =>
    if scheme = [] then (a, .throw .invalidArgument)
    else if badScheme scheme true then (a, .throw .invalidArgument)
    else
      let cut := (Parser.splitFirst '?' rest).getD (rest, [])
      let address := cut.1
      let query := cut.2
      SM.bind
        (if query = [] then
          if address = [] then makeUnnamed else setFile env address
        else if query = "unnamed".toList then
          if address ≠ [] then fun a => (a, .throw .invalidArgument) else makeUnnamed
        else if query = "file".toList then setFile env address
        else if query = "abstract".toList then setAbstract env address
        else fun a => (a, .throw .invalidArgument))
        (fun _ => setScheme scheme) a

/-- `addr_unix::set_un()`, addr_unix.cpp:173-208. -/
def setUn (env : UnixEnv) (un : SockaddrUn) : SM UnixAddr Unit := fun a =>
  if un.family ≠ AF_UNIX then (a, .throw .invalidStructure)
  else if un.path[0] ≠ '\x00' then
    let name := cstr un.path.toList
    if name.length = 108 then (a, .throw .invalidArgument) else setFile env name a
  else if un.path[1] ≠ '\x00' then
    let name := cstr (un.path.toList.drop 1)
    if name.length = 108 - 1 then (a, .throw .invalidArgument) else setAbstract env name a
  else makeUnnamed a

/-- The bytes of the structure beyond the length are cleared, addr_unix.cpp:568-574. The two bytes of the family come
first, the low one before the high one. -/
def clearTail (un : SockaddrUn) (length : Nat) : SockaddrUn :=
  { family := if length = 0 then 0 else if length = 1 then un.family &&& 0xFF else un.family
    path := Vector.ofFn fun i => if i.val + 2 < length then un.path[i] else '\x00' }

/-- `addr_unix::set_from_socket()`, addr_unix.cpp:549-579. -/
def setFromSocket (env : UnixEnv) (name : SockName) : SM UnixAddr Bool := fun a =>
  match name with
  | .fails => (a, .ok false)
  | .gives un length =>
    if un.family ≠ AF_UNIX then (a, .ok false)
    else
      SM.bind (setUn env (if length < 110 then clearTail un length else un)) (fun _ => SM.pure true) a

/-- `addr_unix::addr_unix(sockaddr_un const &)`, addr_unix.cpp:93-96. -/
def ofUn (env : UnixEnv) (un : SockaddrUn) : Res UnixAddr :=
  match setUn env un create with
  | (a, .ok ()) => .ok a
  | (_, .throw e) => .throw e
  | (_, .ub w) => .ub w

/-- `addr_unix::addr_unix(std::string const &, bool)`, addr_unix.cpp:112-126. -/
def ofString (env : UnixEnv) (address : Str) (abstract : Bool) : Res UnixAddr :=
  match (if abstract then setAbstract env address else if address ≠ [] then setFile env address else SM.pure ()) create with
  | (a, .ok ()) => .ok a
  | (_, .throw e) => .throw e
  | (_, .ub w) => .ub w

/-- `addr_unix::is_file()`, addr_unix.cpp:589-592. -/
def isFile (a : UnixAddr) : Bool := a.address.path[0] ≠ '\x00'

/-- `addr_unix::is_abstract()`, addr_unix.cpp:605-609. -/
def isAbstract (a : UnixAddr) : Bool := a.address.path[0] = '\x00' && a.address.path[1] ≠ '\x00'

/-- `addr_unix::is_unnamed()`, addr_unix.cpp:621-625. -/
def isUnnamed (a : UnixAddr) : Bool := a.address.path[0] = '\x00' && a.address.path[1] = '\x00'

/-- `addr_unix::get_scheme()`, addr_unix.cpp:637-640. -/
def getScheme (a : UnixAddr) : Str := if a.scheme = [] then "unix".toList else a.scheme

/-- `addr_unix::get_un()`, addr_unix.cpp:654-657. -/
def getUn (a : UnixAddr) : SockaddrUn := a.address

/-- `addr_unix::to_string()`, addr_unix.cpp:702-710. -/
def toStr (a : UnixAddr) : Res Str := readCString a.address.path (if a.isAbstract then 1 else 0)

/-- `addr_unix::to_uri()`, addr_unix.cpp:723-754. -/
def toUri (a : UnixAddr) : Res Str :=
  let result := a.getScheme ++ [':']
  if !a.isUnnamed then
    let pos := if a.isFile then 0 else 1
    let query := if a.isFile then [] else "?abstract".toList
    readCString a.address.path pos >>= fun path =>
      .ok (result ++ (if path.head? = some '/' then "//".toList else []) ++ path ++ query)
  else .ok result

/-- `addr_unix::unlink()`, addr_unix.cpp:779-787: the name given to `unlink(2)`, if it is called. -/
def unlinkName (a : UnixAddr) : Res (Option Str) :=
  if a.isFile then readCString a.address.path 0 >>= fun s => .ok (some s) else .ok none

/-- The bytes of a `sockaddr_un` in memory. -/
def bytesOf (un : SockaddrUn) : List Nat := [un.family.toNat % 256, un.family.toNat / 256] ++ un.path.toList.map Char.toNat

/-- `memcmp()` on buffers of the same size. -/
def memcmp : List Nat → List Nat → Int
  | x :: l, y :: m => if x = y then memcmp l m else if x < y then -1 else 1
  | _, _ => 0

/-- The comparison of two `sockaddr_un`, addr_unix.h:141-174. -/
def cmp (a b : UnixAddr) : Int := memcmp (bytesOf a.address) (bytesOf b.address)

/-- `addr_unix::operator ==`, addr_unix.cpp:807-810 with addr_unix.h:141-144. -/
def eq (a b : UnixAddr) : Bool := cmp a b == 0
/-- `addr_unix::operator !=`, addr_unix.cpp:827-830 with addr_unix.h:147-150. -/
def ne (a b : UnixAddr) : Bool := cmp a b != 0
/-- `addr_unix::operator <`, addr_unix.cpp:848-851 with addr_unix.h:153-156. -/
def lt (a b : UnixAddr) : Bool := cmp a b < 0
/-- `addr_unix::operator <=`, addr_unix.cpp:868-871 with addr_unix.h:159-162. -/
def le (a b : UnixAddr) : Bool := cmp a b ≤ 0
/-- `addr_unix::operator >`, addr_unix.cpp:889-892 with addr_unix.h:165-168. -/
def gt (a b : UnixAddr) : Bool := cmp a b > 0
/-- `addr_unix::operator >=`, addr_unix.cpp:910-913 with addr_unix.h:171-174. -/
def ge (a b : UnixAddr) : Bool := cmp a b ≥ 0

end UnixAddr

/-- The member functions which may change an `addr_unix`. -/
inductive UnixOp
  | setScheme (scheme : Str)
  | setUn (un : SockaddrUn)
  | makeUnnamed
  | setFile (file : Str)
  | setMode (mode : Int)
  | setGroup (group : Str)
  | setAbstract (abstract : Str)
  | setUri (uri : Str)
  | setFromSocket (name : SockName)

/-- A call; the answer of `set_from_socket()` is dropped. -/
def UnixOp.run (env : UnixEnv) : UnixOp → SM UnixAddr Unit
  | .setScheme s => UnixAddr.setScheme s
  | .setUn un => UnixAddr.setUn env un
  | .makeUnnamed => UnixAddr.makeUnnamed
  | .setFile f => UnixAddr.setFile env f
  | .setMode m => UnixAddr.setMode m
  | .setGroup g => UnixAddr.setGroup g
  | .setAbstract s => UnixAddr.setAbstract env s
  | .setUri u => UnixAddr.setUri env u
  | .setFromSocket n => SM.bind (UnixAddr.setFromSocket env n) fun _ => SM.pure ()

/-- The objects which a program can hold: constructed (copies included), then changed by any calls, exceptions being
caught. -/
inductive UnixReachable (env : UnixEnv) : UnixAddr → Prop
  | create : UnixReachable env UnixAddr.create
  | ofUn {un a} (h : UnixAddr.ofUn env un = .ok a) : UnixReachable env a
  | ofString {s abstract a} (h : UnixAddr.ofString env s abstract = .ok a) : UnixReachable env a
  | call {a} (op : UnixOp) (h : UnixReachable env a) : UnixReachable env (op.run env a).1

end Verif
