import Verif.Model.Validator
import Verif.Model.Unix

/-!
# The environment of the conformance tests

The files in this directory are tests of the model, not proofs of properties: they run the model on the literal inputs of
the unit tests of libaddr (`/repo/tests/catch_*.cpp`) and compare it with the values which these tests require. Their aim
is to find places where the model is not what the code does. No claim of `MANIFEST.json` uses them.

The functions of the C library are given the answers which the unit tests rely on: numeric addresses are known in both
families, `localhost` is 127.0.0.1, other names are not known, and without a protocol a node comes for each of TCP, UDP
and IP.
-/

namespace Verif.Conformance

open Inet

/-- A decimal number. -/
def decimal (s : Str) : Option Nat :=
  if s ≠ [] ∧ s.all Char.isDigit then some (s.foldl (fun n c => n * 10 + (c.toNat - 48)) 0) else none

/-- The protocols for which `getaddrinfo()` gives a node. -/
def protocols (p : Int) : List Int := if p = 0 then [6, 17, 0] else [p]

/-- The C library and advgetopt as seen by the unit tests. -/
def libc : ParseEnv where
  getaddrinfo host service numeric protocol :=
    match decimal service with
    | none => .error (-2) 0
    | some n =>
      let port := swap16 (BitVec.ofNat 16 n)
      match (if host = "localhost".toList ∧ !numeric then some #v[127, 0, 0, 1] else pton4 host) with
      | some b => .list ((protocols protocol).map fun p =>
          .inet sizeofIn p { family := AF_INET, port := port, addr := b, zero := Vector.replicate 8 0 })
      | none =>
        match pton6 host with
        | some b => .list ((protocols protocol).map fun p =>
            .inet6 sizeofIn6 p { family := AF_INET6, port := port, flowinfo := 0, scope := 0, addr := b })
        | none => .error (-2) (if numeric then 0 else 22)
  gaiStrerror _ := "Name or service not known".toList
  strerror n := if n = 22 then "Invalid argument".toList else "Success".toList
  convert s :=
    match s with
    | '-' :: t => (decimal t).map fun n => -(n : Int)
    | _ => (decimal s).map Int.ofNat
  getprotobyname s :=
    if s = "tcp".toList then some 6 else if s = "udp".toList then some 17
    else if s = "ip".toList then some 0 else if s = "icmp".toList then some 1 else none

/-- The databases `/etc/protocols` and `/etc/services`. -/
def db : NetDb where
  protoByNumber p := if p = 6 then .found "tcp".toList else .notFound
  servByPort port _ := if port = 80 then .found "http".toList else .notFound

/-- A text, with the exceptions and undefined behaviour made visible. -/
def shown : Res Str → Str
  | .ok s => s
  | .throw _ => "THROW".toList
  | .ub _ => "UB".toList

/-- The parser after some calls on a new one. -/
def parser (ops : List ParserOp) : Parser := ParserOp.runAll (ops.map fun o => (libc, o)) Parser.create

/-- What `parse()` returns, printed in a mode, and the error messages. -/
def parses (ops : List ParserOp) (mode : BitVec 32) (text : String) : List Str × Str :=
  match Parser.parse libc text.toList (parser ops) with
  | (p, .ok l) => (l.map fun r => shown (r.toStr db mode), p.error)
  | (p, r) => ([shown (match r with | .throw e => .throw e | _ => .ub .nullDereference)], p.error)

/-- The expected outcome. -/
def gives (l : List String) (errors : String) : List Str × Str := (l.map String.toList, errors.toList)

/-- The IPv4 address a.b.c.d:port. -/
def v4 (a b c d : Byte) (port : Nat := 0) : Addr :=
  let s : SockaddrIn :=
    { family := AF_INET, port := swap16 (BitVec.ofNat 16 port), addr := #v[a, b, c, d], zero := Vector.replicate 8 0 }
  match Addr.ofIn s with
  | .ok x => x
  | _ => Addr.default

/-- The IPv6 address written `s`. -/
def v6 (s : String) : Addr :=
  match pton6 s.toList with
  | some b =>
    match Addr.ofIn6 { family := AF_INET6, port := 0, flowinfo := 0, scope := 0, addr := b } with
    | .ok x => x
    | _ => Addr.default
  | none => Addr.default

end Verif.Conformance
