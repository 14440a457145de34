import Verif.Conformance.Env

/-!
# Conformance of the parser: tests of `catch_ipv4.cpp` and `catch_ipv6.cpp`

These are tests, see `Verif.Conformance.Env`.
-/

namespace Verif.Conformance

/-- TCP only. -/
def tcp : ParserOp := .setProtocol 6

/-! ## catch_ipv4.cpp -/

-- 129-420, 1044-1540, "invalid_input", "address"
example : parses [tcp, .setAllow 1 true] STRING_IP_ADDRESS "" = gives [] "Required address is missing.\n" := by decide +kernel
example : parses [tcp, .setAllow 8 true] STRING_IP_ADDRESS "1.2.3.4" = gives [] "Required port is missing.\n" := by decide +kernel
example : parses [tcp, .setAllow 7 false, .setAllow 8 true] STRING_IP_ADDRESS "1.2.3.4"
    = gives [] "Required port is missing.\n" := by decide +kernel
example : parses [tcp, .setAllow 7 false] STRING_IP_ADDRESS "1.2.3.4:123"
    = gives [] "Port not allowed (1.2.3.4:123).\n" := by decide +kernel
example : parses [tcp, .setAllow 9 true] STRING_IP_ALL "1.2.3.4:7/10001"
    = gives [] "Mask size too large (10001, expected a maximum of 128).\n" := by decide +kernel
example : parses [tcp, .setAllow 9 true] STRING_IP_ALL "1.2.3.4:7/33"
    = gives [] "Unsupported mask size (33, expected 32 at the most for an IPv4).\n" := by decide +kernel
example : parses [tcp, .setAllow 9 true, .setAllow 10 true] STRING_IP_ALL "1.2.3.4:7/localhost"
    = gives [] "Invalid mask in \"/localhost\", error -2 -- Name or service not known (errno: 0 -- Success).\n" := by
  decide +kernel
example : parses [tcp, .setAllow 9 true, .setAllow 10 true] STRING_IP_ALL "1.2.3.4:7/[1:2:3:4:5:6:7:8]"
    = gives [] "The address uses the IPv4 syntax, the mask cannot use IPv6.\n" := by decide +kernel
example : parses [tcp, .setAllow 9 true, .setAllow 10 true] STRING_IP_ALL "1.2.3.4:7/1:2:3:4:5:6:7:8"
    = gives [] "Incompatible address between the address and mask address (first was an IPv4 second an IPv6).\n" := by
  decide +kernel
example : parses [tcp, .setAllow 5 false] STRING_IP_ADDRESS "www.example.com:4471"
    = gives [] "Unknown address in \"www.example.com\" (no DNS lookup was allowed).\n" := by decide +kernel
example : parses [tcp, .setAllow 5 false] STRING_IP_ADDRESS "1.2.3.4:https"
    = gives [] "invalid port in \"https\" (no service name lookup allowed).\n" := by decide +kernel
example : parses [] STRING_IP_ADDRESS "{bad-ip}"
    = gives [] "Invalid address in \"{bad-ip}\" error -2 -- Name or service not known (errno: 22 -- Invalid argument).\n" := by
  decide +kernel

/-- The three addresses of the tests on lists. -/
def three : List Str × Str := gives ["1.2.3.4:55/32", "5.6.7.8:0/32", "10.11.12.99:77/32"] ""

example : parses [tcp, .setAllow 2 true] STRING_IP_ALL "1.2.3.4:55,5.6.7.8,,,,10.11.12.99:77" = three := by decide +kernel
example : parses [tcp, .setAllow 3 true] STRING_IP_ALL "1.2.3.4:55 5.6.7.8   10.11.12.99:77" = three := by decide +kernel
example : parses [tcp, .setAllow 2 true, .setAllow 3 true] STRING_IP_ALL " 1.2.3.4:55,, 5.6.7.8 , 10.11.12.99:77 "
    = three := by decide +kernel
example : parses [tcp, .setAllow 2 true, .setAllow 11 true] STRING_IP_ALL
    "1.2.3.4:55#first,5.6.7.8#second,10.11.12.99:77#third" = three := by decide +kernel
example : parses [tcp, .setAllow 2 true, .setAllow 12 true] STRING_IP_ALL
    "1.2.3.4:55;first,5.6.7.8;second,10.11.12.99:77;third" = three := by decide +kernel
example : parses [tcp, .setAllow 2 true, .setAllow 11 true, .setAllow 12 true] STRING_IP_ALL
    "1.2.3.4:55;first,5.6.7.8#second,10.11.12.99:77;third" = three := by decide +kernel

-- 3162-3656, "string_to_addr"
/-- `string_to_addr()` with its default arguments, printed in full with the protocol. -/
def converted (a : String) (defaultAddress : String := "") (port : Int := -1) (protocol : String := "") (mask : Bool := false) :
    Str × Int :=
  match Parser.stringToAddr libc a.toList defaultAddress.toList port protocol.toList mask with
  | .ok x => (shown (x.toIpv4or6String db STRING_IP_ALL), x.protocol)
  | .throw _ => ("THROW".toList, 0)
  | .ub _ => ("UB".toList, 0)

example : (converted "").1 = "0.0.0.0:0/32".toList := by decide +kernel
example : (converted "5.14.34.111").1 = "5.14.34.111:0/32".toList := by decide +kernel
example : (converted "37.149.174.11" "1.205.32.11").1 = "37.149.174.11:0/32".toList := by decide +kernel
example : (converted "" "1.205.32.11").1 = "1.205.32.11:0/32".toList := by decide +kernel
example : (converted "69.109.223.17:697" "1.205.32.11" 123).1 = "69.109.223.17:697/32".toList := by decide +kernel
example : (converted "169.209.23.217" "1.205.32.11" 123).1 = "169.209.23.217:123/32".toList := by decide +kernel
example : converted "4.5.123.7" "1.205.32.11" 60000 "tcp" = ("4.5.123.7:60000/32".toList, 6) := by decide +kernel
example : converted "204.105.13.9:65" "1.205.32.11" 60000 "tcp" = ("204.105.13.9:65/32".toList, 6) := by decide +kernel
example : converted "94.95.131.18:765" "11.205.32.21" 54003 "tcp" true = ("94.95.131.18:765/32".toList, 6) := by decide +kernel
example : converted "44.45.141.48:765/30" "11.205.32.21" 54003 "tcp" true = ("44.45.141.48:765/30".toList, 6) := by
  decide +kernel
example : converted "160.0.0.0:1675/4" "11.205.32.21" 14003 "udp" true = ("160.0.0.0:1675/4".toList, 17) := by decide +kernel
example : (converted "4.5.123.7" "1.205.32.11" 60000 "icmp").1 = "THROW".toList := by decide +kernel
example : (converted "not an address").1 = "THROW".toList := by decide +kernel

/-! ## catch_ipv6.cpp -/

-- 130-220, 345-385, 1238-1265, 1922-1942, "invalid_input", "address", "port"
example : parses [] STRING_IP_ADDRESS "[{bad-ip}]"
    = gives [] "Invalid address in \"{bad-ip}\" error -2 -- Name or service not known (errno: 22 -- Invalid argument).\n" := by
  decide +kernel
example : parses [] STRING_IP_ADDRESS "[1:2:3:4:5:6:7" = gives [] "IPv6 is missing the ']' ([1:2:3:4:5:6:7).\n" := by
  decide +kernel
example : parses [tcp, .setAllow 1 true] STRING_IP_ADDRESS "[]" = gives [] "Required address is missing.\n" := by decide +kernel
example : parses [tcp, .setAllow 8 true] STRING_IP_ADDRESS "[1:2:3:4:5:6:7:8]" = gives [] "Required port is missing.\n" := by
  decide +kernel
example : parses [tcp, .setAllow 7 false] STRING_IP_ADDRESS "[1:2:3:4:5:6:7:8]:123"
    = gives [] "Port not allowed ([1:2:3:4:5:6:7:8]:123).\n" := by decide +kernel
example : parses [tcp, .setAllow 7 false] STRING_IP_ADDRESS "1:2:3:4:5:6:7:8:123.5"
    = gives [] ("Invalid address in \"1:2:3:4:5:6:7:8:123.5\" error -2 -- Name or service not known "
      ++ "(errno: 22 -- Invalid argument).\n") := by decide +kernel
example : parses [tcp, .setAllow 9 true, .setAllow 10 true] STRING_IP_ALL "[1:2:3:4:5:6:7:8]:77/::3"
    = gives [] "The address uses the IPv6 syntax, the mask cannot use IPv4.\n" := by decide +kernel
example : parses [tcp, .setAllow 9 true, .setAllow 10 true] STRING_IP_ALL "[1:2:3:4:5:6:7:8]:77/[::3"
    = gives [] "The IPv6 mask is missing the ']' ([::3).\n" := by decide +kernel
example : parses [tcp, .setAllow 9 true, .setAllow 10 true] STRING_IP_ALL "[1:2:3:4:5:6:7:8]:77/[1.2.3.4]"
    = gives [] "Incompatible address between the address and mask address (first was an IPv6 second an IPv4).\n" := by
  decide +kernel
example : parses [tcp, .setAllow 5 false] STRING_IP_ADDRESS "ipv6.example.com:4471"
    = gives [] "Unknown address in \"ipv6.example.com\" (no DNS lookup was allowed).\n" := by decide +kernel
example : parses [tcp, .setAllow 5 false, .setAllow 7 false, .setDefaultPort 4471] STRING_IP_ADDRESS "[f801::31]"
    = gives [] "Found a port (\"4471\") when it is not allowed.\n" := by decide +kernel
example : parses [.setAllow 7 false] STRING_IP_ADDRESS "localhost:33.5"
    = gives [] "Invalid address in \"localhost:33.5\" error -2 -- Name or service not known\n" := by decide +kernel
example : parses [] STRING_IP_ADDRESS "[fafa:fefe:ffaa:ffee::3] :456"
    = gives [] "The IPv6 address \"[fafa:fefe:ffaa:ffee::3] :456\" is followed by unknown data.\n" := by decide +kernel

-- 404-480, the defaults
/-- The default addresses and masks of a parser. -/
def defaults (ops : List ParserOp) : Str × Str × Str × Str :=
  let c := (parser ops).config
  (c.defaultAddress4, c.defaultAddress6, c.defaultMask4, c.defaultMask6)

example : (Parser.setDefaultAddress "[4:5:4:5:7:8:7:8".toList Parser.create).2 = .throw .invalidArgument ∧
    (defaults [.setDefaultAddress "[1:7:1:7:1:7:1:7]".toList, .setDefaultAddress "[9:5:9:5:9:8:9:8".toList,
        .setDefaultAddress "12.55.1.9".toList]
      = ("12.55.1.9".toList, "1:7:1:7:1:7:1:7".toList, [], [])) ∧
    (defaults [.setDefaultAddress "[1:7:1:7:1:7:1:7]".toList, .setDefaultAddress "12.55.1.9".toList, .setDefaultAddress []]
      = ([], [], [], [])) := by decide +kernel
example : (Parser.setDefaultMask libc "[4:5:4:5:7:8:7:8".toList Parser.create).2 = .throw .invalidArgument ∧
    (Parser.setDefaultMask libc "-1".toList Parser.create).2 = .throw .invalidArgument ∧
    (Parser.setDefaultMask libc "129".toList Parser.create).2 = .throw .invalidArgument ∧
    (defaults [.setDefaultMask "[1:7:1:7:1:7:1:7]".toList, .setDefaultMask "12.55.1.9".toList]
      = ([], [], "12.55.1.9".toList, "1:7:1:7:1:7:1:7".toList)) ∧
    (defaults [.setDefaultMask "[1:7:1:7:1:7:1:7]".toList, .setDefaultMask "12.55.1.9".toList, .setDefaultMask "55".toList]
      = ([], [], "12.55.1.9".toList, "55".toList)) ∧
    (defaults [.setDefaultMask "12.55.1.9".toList, .setDefaultMask "55".toList, .setDefaultMask "16".toList]
      = ([], [], "16".toList, "55".toList)) ∧
    (defaults [.setDefaultMask "55".toList, .setDefaultMask "16".toList, .setDefaultMask []] = ([], [], [], [])) := by
  decide +kernel

-- 1270-1432, "a set of IPs and a sort"
/-- The list of these tests, in a given order. -/
def sorted (order : BitVec 64) : List Str × Str :=
  parses [tcp, .setAllow 2 true, .setAllow 6 true, .setSortOrder order] STRING_IP_ADDRESS
    ("7::-3::,10.0.0.32,192.168.2.15-192.168.2.23,::,5.8.9.11,f801::5553,192.168.2.1-192.168.2.14,::3000-::2000")

/-- What an empty range is printed as. -/
def none : String := "<empty address range>"

example : sorted 0 = gives [none, "10.0.0.32", "192.168.2.15-192.168.2.23", "::", "5.8.9.11", "f801::5553",
    "192.168.2.1-192.168.2.14", none] "" := by decide +kernel
example : sorted SORT_NO_EMPTY = gives ["10.0.0.32", "192.168.2.15-192.168.2.23", "::", "5.8.9.11", "f801::5553",
    "192.168.2.1-192.168.2.14"] "" := by decide +kernel
example : sorted SORT_FULL = gives ["::", "5.8.9.11", "10.0.0.32", "192.168.2.1-192.168.2.14",
    "192.168.2.15-192.168.2.23", "f801::5553", none, none] "" := by decide +kernel
example : sorted SORT_IPV6_FIRST = gives ["::", "f801::5553", "10.0.0.32", "192.168.2.15-192.168.2.23", "5.8.9.11",
    "192.168.2.1-192.168.2.14", none, none] "" := by decide +kernel
example : sorted SORT_IPV4_FIRST = gives ["10.0.0.32", "192.168.2.15-192.168.2.23", "5.8.9.11", "192.168.2.1-192.168.2.14",
    "::", "f801::5553", none, none] "" := by decide +kernel
example : sorted SORT_MERGE = gives ["::", "5.8.9.11", "10.0.0.32", "192.168.2.1-192.168.2.23", "f801::5553", none, none]
    "" := by decide +kernel
example : sorted (SORT_MERGE ||| SORT_IPV4_FIRST) = gives ["5.8.9.11", "10.0.0.32", "192.168.2.1-192.168.2.23", "::",
    "f801::5553", none, none] "" := by decide +kernel
example : sorted (SORT_MERGE ||| SORT_IPV6_FIRST) = gives ["::", "f801::5553", "5.8.9.11", "10.0.0.32",
    "192.168.2.1-192.168.2.23", none, none] "" := by decide +kernel
example : sorted (SORT_NO_EMPTY ||| SORT_MERGE ||| SORT_IPV6_FIRST) = gives ["::", "f801::5553", "5.8.9.11", "10.0.0.32",
    "192.168.2.1-192.168.2.23"] "" := by decide +kernel
example : (Parser.setSortOrder (SORT_IPV6_FIRST ||| SORT_IPV4_FIRST) (parser [.setSortOrder SORT_NO_EMPTY])).2
      = .throw .invalidArgument ∧
    (Parser.setSortOrder (SORT_IPV6_FIRST ||| SORT_IPV4_FIRST) (parser [.setSortOrder SORT_NO_EMPTY])).1.config.sort
      = SORT_NO_EMPTY := by decide +kernel

-- 1434-1582, "one side ranges", comments, "parse invalid range"
example : parses [tcp, .setAllow 2 true, .setAllow 6 true] STRING_IP_ADDRESS "-::1,-10.0.0.32,f801::5553-,192.168.2.1-"
    = gives ["-::1", "-10.0.0.32", "f801::5553", "192.168.2.1"] "" := by decide +kernel

/-- Lines with comments, sorted and merged. -/
def lines (comment : Int) (text : String) : List Str × Str :=
  parses [tcp, .setAllow 4 true, .setAllow 6 true, .setAllow comment true,
    .setSortOrder (SORT_NO_EMPTY ||| SORT_MERGE ||| SORT_IPV6_FIRST)] STRING_IP_ADDRESS text

/-- What both lists of lines give. -/
def merged : List Str × Str :=
  gives ["::1", "9::-b::3", "f801::3332", "10.1.0.32", "25.8.9.11", "192.168.2.1-192.168.2.14"]
    "An address range requires at least one of the \"from\" or \"to\" addresses.\n"

example : lines 11 ("9::-a::\n10.1.0.32\n192.168.2.23-192.168.2.18\n#0:0:300f:f00f:3355::3\n::1\n25.8.9.11\n\nf801::3332\n"
    ++ "192.168.2.1-192.168.2.14\n-:45\na::1-b::3\n\n# an actual comment\n") = merged := by decide +kernel
example : lines 12 ("; list of IPs\n9::-a::\n10.1.0.32\n192.168.2.23-192.168.2.18\n;0:0:300f:f00f:3355::3\n::1\n25.8.9.11\n\n"
    ++ "f801::3332\n192.168.2.1-192.168.2.14\n-:45\na::1-b::3\n\n") = merged := by decide +kernel
example : parses [tcp, .setAllow 6 true] STRING_IP_ADDRESS "invalid.from-:45"
    = gives [] ("Invalid address in \"invalid.from:45\" error -2 -- Name or service not known "
      ++ "(errno: 22 -- Invalid argument).\n") := by decide +kernel
example : parses [tcp, .setAllow 6 true] STRING_IP_ADDRESS "-invalid.tom:45"
    = gives [] ("Invalid address in \"invalid.tom:45\" error -2 -- Name or service not known "
      ++ "(errno: 22 -- Invalid argument).\n") := by decide +kernel

-- 2158-2195, 2460-2540, "masks"
example : parses [tcp, .setAllow 9 true, .setAllow 10 true] STRING_IP_ALL "[55:33:22:11:0:cc:bb:aa]:77/[]"
    = gives ["[55:33:22:11:0:cc:bb:aa]:77/128"] "" := by decide +kernel
example : (parses [tcp, .setAllow 9 true] STRING_IP_ALL "[66:33:cc:11:7:11:bb:dd]:77/[]").1 = [] := by decide +kernel
example : parses [tcp, .setAllow 9 true] STRING_IP_ALL ":77/33" = gives ["[::]:77/33"] "" := by decide +kernel
example : parses [tcp, .setAllow 9 true] STRING_IP_ALL ":77/96" = gives ["[::]:77/96"] "" := by decide +kernel
example : parses [tcp, .setAllow 9 true] STRING_IP_ALL ":77/128" = gives ["[::]:77/128"] "" := by decide +kernel
example : parses [tcp, .setAllow 9 true, .setAllow 10 true] STRING_IP_ALL ":77/[1:2:3:4:5:6:7:8]"
    = gives ["[::]:77/[1:2:3:4:5:6:7:8]"] "" := by decide +kernel

end Verif.Conformance
