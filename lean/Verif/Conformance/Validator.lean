import Verif.Conformance.Env

/-!
# Conformance of the validator: tests of `catch_validator.cpp`

These are tests, see `Verif.Conformance.Env`.
-/

namespace Verif.Conformance

/-- `snapdev::split_string()` on spaces. -/
def words : Str → Str → List Str
  | [], cur => if cur = [] then [] else [cur.reverse]
  | c :: t, cur =>
    if c = ' ' then (if cur = [] then words t [] else cur.reverse :: words t []) else words t (c :: cur)

/-- The environment of the validator. -/
def venv : Validator.Env where
  parse := libc
  db := db
  split s := words s []

/-- The number of messages logged by the constructor and what `validate()` says of some values. -/
def validates (flags : List String) (values : List String) : Option (Nat × List Bool) :=
  match Validator.create venv (flags.map String.toList) with
  | .ok (p, n) => some (n, values.map fun x =>
    match (Validator.validate libc x.toList p).2 with
    | .ok (b, _) => b
    | _ => false)
  | _ => none

example : validates [] ["192.168.1.1", "10.0.0.10:5434", "10.0.0.10:5434/24", "::", "[::]:307", "f801::5"]
    = some (0, [true, true, false, true, true, true]) := by decide +kernel
example : validates ["address=commas spaces newlines range lookup", "port=yes", "mask=address", "comment",
      "defaults=192.168.2.1:4040/24"]
    ["192.168.1.1", "192.168.1.1\n; and comments are allowed after", "192.168.1.1-192.168.2.254", "10.0.0.10:5434",
      "10.0.0.10:5434/24", ":5/255.255.255.0", "# comment with a hash and allowed before\n:5/255.255.255.0", "::",
      "::1 # this is the IPv6 loopback", "f801::5/48", "f801::5/48 ; a comment at the end of the line works too", ""]
    = some (0, [true, true, true, true, true, true, true, true, true, true, true, true]) := by decide +kernel
example : validates ["address=commas spaces newlines range lookup", "port=yes", "mask=address", "comment",
      "defaults=[ff01::345a:123b]:8080/32"]
    ["192.168.1.1", "10.0.0.10:5434/24", "::1 # this is the IPv6 loopback", "f801::5/48", ""]
    = some (0, [true, true, true, true, true]) := by decide +kernel
example : validates ["address=required", "port=required", "defaults=yes"] ["192.168.1.1:4040", "192.168.1.1", ":4040", ""]
    = some (0, [true, false, false, false]) := by decide +kernel
example : (validates ["defaults=192.168.19.1-192.168.19.254"] []).map Prod.fst = some 1 := by decide +kernel
example : validates ["address=no", "port=yes", "comment=hash"]
    ["192.168.1.1 # this should work, right?", "  192.168.3.3:401 # this should work, right?",
      "172.17.0.10 ; however, this one fails", "  10.0.0.10:5434 ; however, this one fails"]
    = some (0, [true, true, false, false]) := by decide +kernel
example : validates ["address=no", "port=yes", "comment=semicolon"]
    ["192.168.1.1 ; this should work, right?", "  192.168.3.3:401 ; this should work, right?",
      "172.17.0.10 # however, this one fails", "  10.0.0.10:5434 # however, this one fails"]
    = some (0, [true, true, false, false]) := by decide +kernel
example : (["no", "yes", "all"].map fun c => validates ["address=no", "port=yes", "comment=" ++ c]
      ["192.168.1.1 ; this", "  192.168.3.3:401 ; this", "172.17.0.10 # this", "  10.0.0.10:5434 # this"])
    = [some (0, [false, false, false, false]), some (0, [true, true, true, true]), some (0, [true, true, true, true])] := by
  decide +kernel
example : (["unsupported", "hash semicolon"].map fun c => validates ["address=no", "port=yes", "comment=" ++ c]
      [" 192.168.1.1 ", "  192.168.3.3:401 ; this fails", "172.17.0.10", "  10.0.0.10:5434 # this fails"])
    = [some (1, [true, false, true, false]), some (1, [true, false, true, false])] := by decide +kernel
example : (["mask=one value or error", "mask=undefined", "port=1 2 3", "port=undefined", "address=no range",
      "address=range no", "address=console required", "address=required yes", "address=yes required", "audio=yes"].map
      fun f => (validates [f] []).map Prod.fst)
    = List.replicate 10 (some 1) := by decide +kernel
example : validates ["", "coment=", ""] ["5.6.7.8"] = some (1, [true]) := by decide +kernel

end Verif.Conformance
