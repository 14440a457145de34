import Verif.Conformance.Env

/-!
# Conformance of the addresses: tests of `catch_ipv4.cpp` and `catch_ipv6.cpp`

These are tests, see `Verif.Conformance.Env`.
-/

namespace Verif.Conformance

/-- The texts of the default address in the modes of the tests. -/
def texts (a : Addr) (modes : List (BitVec 32)) : List Str := modes.map fun m => shown (a.toIpv4or6String db m)

example : texts (v4 0 0 0 0 80) [STRING_IP_ADDRESS, STRING_IP_ADDRESS ||| STRING_IP_PORT, STRING_IP_ALL]
    = ["0.0.0.0", "0.0.0.0:80", "0.0.0.0:80/32"].map String.toList := by decide +kernel
example : texts Addr.default [STRING_IP_ADDRESS, STRING_IP_BRACKET_ADDRESS, STRING_IP_ADDRESS ||| STRING_IP_MASK, STRING_IP_ALL]
    = ["::", "[::]", "::/128", "[::]:0/128"].map String.toList := by decide +kernel

/-- The type of the network of an address, then `is_lan()` and `is_wan()` with true and with false. -/
def place (a : Addr) : String × List Bool :=
  (a.getNetworkTypeString, [a.isLan true, a.isLan false, a.isWan true, a.isWan false])

example : place (v4 0 0 0 0) = ("Any", [false, false, true, false]) := by decide +kernel
example : [v4 10 1 2 3, v4 172 16 5 5, v4 172 31 255 255, v4 192 168 4 4].map place
    = List.replicate 4 ("Private", [true, true, false, false]) := by decide +kernel
example : place (v4 100 64 1 1) = ("Carrier", [true, false, false, false]) := by decide +kernel
example : place (v4 169 254 1 1) = ("Local Link", [true, false, false, false]) := by decide +kernel
example : place (v4 224 7 8 9) = ("Multicast", [true, false, false, false]) := by decide +kernel
example : place (v4 127 0 0 1) = ("Loopback", [true, true, false, false]) := by decide +kernel
example : (place (v4 1 2 3 4)).2 = [false, false, true, true] := by decide +kernel
example : place (v6 "::") = ("Any", [false, false, true, false]) := by decide +kernel
example : place (v6 "fd00::1") = ("Private", [true, true, false, false]) := by decide +kernel
example : place (v6 "fe80::1") = ("Local Link", [true, false, false, false]) := by decide +kernel
example : place (v6 "::1") = ("Loopback", [true, true, false, false]) := by decide +kernel
example : (place (v6 "5555:5555::1")).2 = [false, false, true, true] := by decide +kernel

/-- The protocols which `set_protocol()` accepts. -/
example : ([0, 6, 17, 1, -1, 255].map fun (p : Int) => (Addr.setProtocol p Addr.default).2)
    = [.ok (), .ok (), .ok (), .throw .invalidArgument, .throw .invalidArgument, .throw .invalidArgument] := by decide +kernel

end Verif.Conformance
