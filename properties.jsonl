{"id": "C01", "title": "IPv4 socket address round trip", "statement": "Storing a sockaddr_in in an addr and reading it back with get_ipv4() returns the same port and the same four address bytes (with the padding zeroed), is_ipv4() is then true and the IPv6 view is ::ffff:a.b.c.d; a sockaddr_in whose family is not AF_INET is refused with an exception and the addr keeps its previous value.", "quantifier": "every previous addr state, every sockaddr_in (all 2^32 addresses, 2^16 ports, every family and padding)", "why_tests_cant": "2^48 socket addresses times every prior object state cannot be enumerated by unit tests.", "anchors": ["libaddr/addr.cpp: addr::set_ipv4, addr::get_ipv4, addr::is_ipv4, addr::addr(sockaddr_in)", "libaddr/addr.h: init_in6"]}
{"id": "C02", "title": "IPv6 socket address round trip", "statement": "Storing a sockaddr_in6 and reading it back with get_ipv6() returns the identical structure (address, port, flow info and scope id); a structure whose family is not AF_INET6 is refused with an exception and leaves the addr unchanged; get_ipv4() succeeds on the result exactly when the address is an IPv4-mapped one.", "quantifier": "every previous addr state and every sockaddr_in6", "why_tests_cant": "The domain has more than 2^208 values; tests can only sample it.", "anchors": ["libaddr/addr.cpp: addr::set_ipv6, addr::get_ipv6, addr::get_ipv4, addr::is_ipv4"]}
{"id": "C03", "title": "128-bit integer view is a bijection", "statement": "ip_to_uint128() is the big-endian value of the sixteen address bytes, ip_from_uint128() is its inverse in both directions, and ip_from_uint128() changes nothing of the object besides those sixteen bytes.", "quantifier": "every addr and every unsigned 128-bit integer", "why_tests_cant": "2^128 values; loops over bytes with shifts hide off-by-one and endianness mistakes on unsampled bytes.", "anchors": ["libaddr/addr.cpp: addr::ip_to_uint128, addr::ip_from_uint128"]}
{"id": "C04", "title": "Address comparison is the numeric total order", "statement": "The six comparison operators of addr agree with the numeric order of the 128-bit big-endian addresses; in particular they form a total order, and port, mask, protocol, interface, hostname, scope id and flow info never influence the result.", "quantifier": "every pair (and triple, for transitivity) of addr objects", "why_tests_cant": "Order laws quantify over triples of 128-bit values and over all ignored fields.", "anchors": ["libaddr/addr.h: operator == / != / < / <= / > / >= (in6_addr)", "libaddr/addr.cpp: addr::operator ==, !=, <, <=, >, >="]}
{"id": "C05", "title": "Address arithmetic saturates and touches nothing else", "statement": "++, --, + n, - n, += n and -= n yield the address clamp(v ± n, 0, 2^128-1), keep port, mask, protocol, interface and hostname, and the postfix forms return the value before the change; the only int for which the behaviour is undefined is INT_MIN.", "quantifier": "every addr and every int offset", "why_tests_cant": "2^160 (address, offset) pairs; saturation at both ends and INT_MIN are corner cases among them.", "anchors": ["libaddr/addr.cpp: addr::operator ++, --, + (int), - (int), += , -="]}
{"id": "C06", "title": "Address difference is the exact signed distance", "statement": "b - a is the signed distance from a to b whenever that distance fits a signed 128-bit integer, and (a + n) - a == n for every n that does not saturate; outside of that the result is the distance modulo 2^128.", "quantifier": "every pair of addr, every int n", "why_tests_cant": "2^256 pairs.", "anchors": ["libaddr/addr.cpp: addr::operator - (addr const &)"]}
{"id": "C07", "title": "Neighbour predicates are exact and dual", "statement": "a.is_next(b) holds exactly when b is the address right after a, a.is_previous(b) exactly when b is right before a, the two are mirror images of each other and neither wraps around from ffff:...:ffff to :: .", "quantifier": "every pair of addr", "why_tests_cant": "2^256 pairs, wrap-around at the very end of the address space.", "anchors": ["libaddr/addr.cpp: addr::is_next, addr::is_previous"]}
{"id": "C08", "title": "Mask size setter/getter round trip", "statement": "set_mask_count(n) succeeds exactly for 0 <= n <= 128 (96 <= n <= 128 when the address is IPv4); it then makes get_mask_size() return n, the mask being n one bits followed by zero bits; otherwise it throws out_of_range and changes nothing.", "quantifier": "every addr and every int n", "why_tests_cant": "Tests can enumerate 129 sizes but not the int argument, nor all prior masks and addresses.", "anchors": ["libaddr/addr.cpp: addr::set_mask_count, addr::get_mask_size, addr::is_mask_defined"]}
{"id": "C09", "title": "get_mask_size() recognises exactly the CIDR masks", "statement": "get_mask_size() returns n >= 0 exactly when the 128-bit mask is n ones followed by 128-n zeros and returns -1 for every other mask.", "quantifier": "every one of the 2^128 masks", "why_tests_cant": "Completeness of a recogniser over 2^128 masks cannot be sampled.", "anchors": ["libaddr/addr.cpp: addr::get_mask_size, addr::set_mask"]}
{"id": "C10", "title": "apply_mask() computes the first and last address of a block", "statement": "apply_mask() clears exactly the bits outside of the mask and apply_mask(true) sets exactly those bits; both are idempotent; for a CIDR mask of size n they give the lowest and the highest address of the aligned 2^(128-n) block which contains the address.", "quantifier": "every addr, every mask", "why_tests_cant": "2^256 (address, mask) pairs.", "anchors": ["libaddr/addr.cpp: addr::apply_mask"]}
{"id": "C11", "title": "match() is membership in the masked block", "statement": "a.match(b) holds exactly when a and b agree on every bit of a's mask; for a CIDR mask this is exactly a.apply_mask() <= b <= a.apply_mask(true); with any=true an a that is the default address (:: or 0.0.0.0) matches everything.", "quantifier": "every pair of addr, every mask, both values of any", "why_tests_cant": "2^384 combinations.", "anchors": ["libaddr/addr.cpp: addr::match, addr::is_default, addr::apply_mask"]}
{"id": "C12", "title": "Network type classification is the documented table", "statement": "On an address whose type was not asked for since the last set_ipv4()/set_ipv6(), get_network_type() returns the category given by the IANA block table documented in the source (10/8, 172.16/12, 192.168/16, 100.64/10, 169.254/16, 224/4, 127/8, 0.0.0.0, ::, fd00::/8, fe80::/10, ffx2::/16, ffx1::/16, ::1, ff00::/8, 2001:db8::/32, 3fff::/20), the blocks being understood as numeric intervals, and never UNDEFINED.", "quantifier": "every 128-bit address", "why_tests_cant": "Bit mask tests versus intervals must agree on all 2^128 addresses.", "anchors": ["libaddr/addr.cpp: addr::get_network_type, addr::get_network_type_string"]}
{"id": "C13", "title": "The network type always describes the current address", "statement": "After any sequence of public calls on an addr, get_network_type() (hence is_lan(), is_wan(), is_valid()) is the type of the address the object currently holds.", "quantifier": "every finite history of public addr operations starting from a default constructed addr", "why_tests_cant": "The property is about the interaction between a mutable cache and every mutator in every order.", "anchors": ["libaddr/addr.cpp: addr::get_network_type, addr::address_changed, addr::apply_mask, addr::ip_from_uint128, addr::operator ++"]}
{"id": "C14", "title": "LAN/WAN/valid/default predicates are coherent", "statement": "No address is both LAN and WAN, is_lan() implies is_lan(true), is_wan(false) implies is_wan(true), the default addresses are exactly those of type ANY, is_valid() fails exactly on documentation addresses, and is_wan(true) holds for exactly the addresses for which is_lan(true) and the documentation check both fail.", "quantifier": "every 128-bit address", "why_tests_cant": "Partition statements range over all addresses.", "anchors": ["libaddr/addr.cpp: addr::is_lan, addr::is_wan, addr::is_valid, addr::is_default"]}
{"id": "C15", "title": "Numeric port setter is exact", "statement": "set_port(n) accepts exactly 0..65535 and then get_port() returns n and the port is marked as defined; any other int is refused by an exception with the object unchanged; ports survive every later address arithmetic or mask operation.", "quantifier": "every addr, every int", "why_tests_cant": "2^32 ints times byte-swapped storage times later operations.", "anchors": ["libaddr/addr.cpp: addr::set_port(int), addr::get_port, addr::is_port_defined"]}
{"id": "C16", "title": "Textual port setter never stores a different port", "statement": "When set_port(\"<decimal number>\") succeeds on a numeric string, get_port() equals the number written; numbers outside of 0..65535 are refused.", "quantifier": "every addr, every string the integer converter accepts (all 64-bit values)", "why_tests_cant": "2^64 numeric values; the narrowing happens only far from the values tests use.", "anchors": ["libaddr/addr.cpp: addr::set_port(char const *), addr::set_port(int)"]}
{"id": "C17", "title": "Structural invariant of addr objects", "statement": "Whatever finite sequence of public calls is made, including failing ones, the stored socket family stays AF_INET6 and the protocol stays one of IP, TCP and UDP, therefore create_socket() always reaches a socket() call and never its unknown-protocol branch.", "quantifier": "every finite history of public addr operations with arbitrary arguments", "why_tests_cant": "An invariant over unbounded histories.", "anchors": ["libaddr/addr.cpp: addr::set_ipv4, set_ipv6, set_protocol, set_from_socket, create_socket, recvfrom"]}
{"id": "C18", "title": "set_protocol() marks the protocol as defined", "statement": "After a successful set_protocol(p), get_protocol() is p and is_protocol_defined() is true; an unknown protocol is refused with the object unchanged. Setting the protocol by its name is setting the number which the protocol database has for the name; a null pointer, a name which is not known and the name of another protocol than IP, TCP and UDP are refused with the object unchanged.", "quantifier": "every addr state, every int protocol, every answer of the protocol database", "why_tests_cant": "Depends on the previous protocol value; tests mostly set a protocol different from the default.", "anchors": ["libaddr/addr.cpp: addr::set_protocol(int), addr::is_protocol_defined", "libaddr/addr.cpp: addr::set_protocol(char const *)"]}
{"id": "C19", "title": "Failing setters leave the object unchanged", "statement": "When a public mutator of addr throws, every getter returns what it returned before the call.", "quantifier": "every addr state, every mutator, every argument, every behaviour of the operating system calls", "why_tests_cant": "Requires all failure points of all mutators, including OS failures that tests cannot provoke.", "anchors": ["libaddr/addr.cpp: addr::set_ipv4, set_ipv6, set_port, set_protocol, set_mask_count, set_from_socket"]}
{"id": "C20", "title": "A socket is always used with an address of its own family", "statement": "For one addr value, the family create_socket() asks the kernel for is the family of the socket address that bind(), connect() and sendto() then pass for it, with the matching structure size and with the stored port and address bytes.", "quantifier": "every addr value", "why_tests_cant": "Quantifies over all addresses, including IPv4-mapped IPv6 ones.", "anchors": ["libaddr/addr.cpp: addr::create_socket, addr::connect, addr::bind, addr::sendto, addr::get_family"]}
{"id": "C21", "title": "IPv4 text round trip", "statement": "Printing an IPv4 address in dotted decimal and reading it back with inet_pton() gives the same address, and two different addresses never print the same.", "quantifier": "all 2^32 IPv4 addresses", "why_tests_cant": "Exhaustive over 2^32 values is beyond unit tests.", "anchors": ["libaddr/addr.cpp: addr::to_ipv4_string, addr::is_hostname_an_ip"]}
{"id": "C22", "title": "IPv6 text round trip", "statement": "Printing an IPv6 address in its canonical compressed form and reading it back with inet_pton() gives the same sixteen bytes, and two different addresses never print the same.", "quantifier": "all 2^128 addresses", "why_tests_cant": "Zero-run compression has many shapes; 2^128 values.", "anchors": ["libaddr/addr.cpp: addr::to_ipv6_string"]}
{"id": "C23", "title": "to_ipv4or6_string() identifies the address", "statement": "to_ipv4or6_string(STRING_IP_ADDRESS) of any addr can be read back by inet_pton() (AF_INET when is_ipv4(), AF_INET6 otherwise) to the same sixteen bytes and never throws; to_ipv6_string() has the same property.", "quantifier": "every addr", "why_tests_cant": "2^128 values; special cases for the default address.", "anchors": ["libaddr/addr.cpp: addr::to_ipv4or6_string, addr::to_ipv4_string, addr::to_ipv6_string"]}
{"id": "C24", "title": "Interval membership", "statement": "A complete range (from and to set) matches an address exactly when from <= address <= to numerically; an empty one matches nothing; is_in() throws exactly when the range is incomplete; a single-sided range matches through its mask; a range with neither bound matches nothing.", "quantifier": "every addr_range, every addr", "why_tests_cant": "2^384 combinations.", "anchors": ["libaddr/addr_range.cpp: addr_range::is_in, addr_range::match, addr_range::is_empty"]}
{"id": "C25", "title": "size() is the number of addresses in the range", "statement": "size() returns min(number of addresses the range holds, SIZE_MAX); in particular 0 for an empty range.", "quantifier": "every addr_range", "why_tests_cant": "Signed 128-bit overflow and truncation only show at the extremes of 2^256 ranges.", "anchors": ["libaddr/addr_range.cpp: addr_range::size"]}
{"id": "C26", "title": "to_addresses() enumerates the range exactly once", "statement": "to_addresses(limit) terminates; it throws out_of_range when the range holds more than limit addresses and otherwise returns every address of the range exactly once in increasing order and nothing else.", "quantifier": "every addr_range, every limit", "why_tests_cant": "Termination and completeness for all ranges, including those ending at the last address.", "anchors": ["libaddr/addr_range.cpp: addr_range::to_addresses"]}
{"id": "C27", "title": "CIDR to range to CIDR round trip", "statement": "from_cidr(a) throws exactly for masks that are not CIDR masks, otherwise the range is the block of a: first address a.apply_mask(), last a.apply_mask(true), never empty; to_cidr() of it always succeeds and gives back the masked address and the mask size.", "quantifier": "every addr with every mask", "why_tests_cant": "2^256 combinations.", "anchors": ["libaddr/addr_range.cpp: addr_range::from_cidr, addr_range::to_cidr"]}
{"id": "C28", "title": "to_cidr() succeeds exactly on aligned blocks", "statement": "to_cidr() returns true exactly when the range is a non-empty aligned power of two block [k*2^m, (k+1)*2^m - 1], never throws, and on success the resulting address and mask describe precisely the addresses of the range; on failure the output parameter is untouched.", "quantifier": "every addr_range and every prior output object", "why_tests_cant": "2^256 ranges; nested bit loops.", "anchors": ["libaddr/addr_range.cpp: addr_range::to_cidr"]}
{"id": "C29", "title": "intersection() is set intersection", "statement": "For two complete ranges, an address is in the intersection exactly when it is in both (the result being empty when they do not meet).", "quantifier": "every pair of addr_range, every addr", "why_tests_cant": "2^640 combinations, including empty operands.", "anchors": ["libaddr/addr_range.cpp: addr_range::intersection"]}
{"id": "C30", "title": "union_if_possible() is set union or nothing", "statement": "For two defined ranges union_if_possible() yields a defined range exactly when the two ranges overlap or touch, and then an address is in it exactly when it is in one of the operands; the operation is commutative on the address sets.", "quantifier": "every pair of addr_range", "why_tests_cant": "Adjacency and overflow at both ends, mixed singles and ranges.", "anchors": ["libaddr/addr_range.cpp: addr_range::union_if_possible"]}
{"id": "C31", "title": "compare() is a faithful classification with a mirror symmetry", "statement": "compare(a,b,mixed=true) of two defined non-empty ranges returns the one relation (equal, smaller, precedes, overlap, included, ...) which holds between the two intervals, compare(b,a) returns the mirror relation, and the internal assertion never fires.", "quantifier": "every pair of addr_range", "why_tests_cant": "Fourteen outcomes over 2^512 pairs.", "anchors": ["libaddr/addr_range.cpp: addr_range::compare", "libaddr/addr.h: compare_t"]}
{"id": "C32", "title": "operator < on ranges is a strict weak order", "statement": "The order used to sort ranges is irreflexive, asymmetric, transitive and its incomparability is transitive, so that std::sort() and friends have defined behaviour.", "quantifier": "every triple of addr_range", "why_tests_cant": "Order axioms over triples; violation makes std::sort undefined.", "anchors": ["libaddr/addr_range.cpp: addr_range::operator <, addr_range::compare"]}
{"id": "C33", "title": "optimize_vector() preserves the set of matched addresses", "statement": "When optimize_vector(v) returns, an address is matched by some entry of the new vector exactly when it was by some entry of the old one; the vector never grows and the result tells whether it shrank.", "quantifier": "every vector of addr with CIDR masks, every address", "why_tests_cant": "Unbounded vectors; in-place erase while iterating.", "anchors": ["libaddr/addr_range.cpp: optimize_vector"]}
{"id": "C34", "title": "optimize_vector() merges everything it can and never fails", "statement": "optimize_vector() accepts every vector of CIDR addresses and leaves no two entries whose blocks could be merged in a single block.", "quantifier": "every vector of addr with CIDR masks", "why_tests_cant": "Depends on the order of the entries.", "anchors": ["libaddr/addr_range.cpp: optimize_vector, addr_range::union_if_possible", "libaddr/addr.cpp: addr::set_mask_count"]}
{"id": "C35", "title": "address_match_ranges() is the union of the ranges", "statement": "address_match_ranges(v, a) is true exactly when a lies in one of the ranges of v; the order and the repetition of the ranges do not matter.", "quantifier": "every vector of ranges, every address", "why_tests_cant": "Unbounded vectors.", "anchors": ["libaddr/addr_range.cpp: address_match_ranges, addr_range::match"]}
{"id": "C36", "title": "Comma flags of the parser are mutually exclusive", "statement": "Whatever sequence of set_allow() calls is made, the parser never allows commas between addresses and commas between ports at the same time, and every other flag has the value last given to it.", "quantifier": "every finite history of set_allow() calls", "why_tests_cant": "History dependent state machine.", "anchors": ["libaddr/addr_parser.cpp: addr_parser::set_allow, addr_parser::get_allow"]}
{"id": "C37", "title": "Error reporting is coherent", "statement": "At any time has_errors() is true exactly when error_count() is not zero, error_messages() holds one line per error in order, and clear_errors() resets all of it.", "quantifier": "every finite history of parser operations", "why_tests_cant": "History dependent.", "anchors": ["libaddr/addr_parser.cpp: addr_parser::emit_error, has_errors, error_count, error_messages, clear_errors"]}
{"id": "C38", "title": "parse() depends only on its configuration", "statement": "parse() changes no configuration of the parser and its result does not depend on the errors accumulated before, so parsing the same string twice returns the same ranges and reports the same errors again.", "quantifier": "every parser state, every input string", "why_tests_cant": "Quantifies over all inputs and histories.", "anchors": ["libaddr/addr_parser.cpp: addr_parser::parse"]}
{"id": "C39", "title": "No name service is consulted unless lookups are allowed", "statement": "With ALLOW_ADDRESS_LOOKUP off (and no mask given as an address), the result of parse() is the same whatever getaddrinfo() would answer.", "quantifier": "every input string, every two name service behaviours", "why_tests_cant": "A two-run (noninterference) property over all inputs and environments.", "anchors": ["libaddr/addr_parser.cpp: addr_parser::parse_address4, parse_address6, parse_mask"]}
{"id": "C40", "title": "Decimal masks denote prefix lengths", "statement": "In mask mode, \"addr/n\" yields for IPv4 the mask of 96+n ones when 0<=n<=32 and for IPv6 the mask of n ones when 0<=n<=128; a larger n is an error and no address is returned.", "quantifier": "every address and every decimal n", "why_tests_cant": "All n and all addresses.", "anchors": ["libaddr/addr_parser.cpp: addr_parser::parse_mask, addr_parser::parse_cidr"]}
{"id": "C41", "title": "List parsing is entry-wise", "statement": "With only a list separator allowed (no comments, no sorting), parsing a separated list returns the concatenation of what parsing each non-empty entry alone returns, and the errors are the concatenation of the entries' errors.", "quantifier": "every list of entries of any length", "why_tests_cant": "Unbounded input lists.", "anchors": ["libaddr/addr_parser.cpp: addr_parser::parse"]}
{"id": "C42", "title": "Comments never swallow or invent addresses", "statement": "With comments allowed, removing every comment (from its introducer to the end of the line or, where entries are separated otherwise, to the next separator) does not change what parse() returns, and an input that consists only of a comment returns nothing.", "quantifier": "every input text", "why_tests_cant": "Interaction of separators, white space and comment characters over all strings.", "anchors": ["libaddr/addr_parser.cpp: addr_parser::parse"]}
{"id": "C43", "title": "Sorting and merging keep the addresses", "statement": "With any sort order the returned ranges are a permutation of the unsorted ones (minus the empty ones with NO_EMPTY); with MERGE the union of the address sets is unchanged; the comparators given to the sort are strict weak orders on every list the parser can build.", "quantifier": "every parsed list, every sort option", "why_tests_cant": "Unbounded lists; UB if the comparator is not a strict weak order.", "anchors": ["libaddr/addr_parser.cpp: addr_parser::parse, set_sort_order", "libaddr/addr_range.cpp: addr_range::operator <, union_if_possible"]}
{"id": "C44", "title": "Printed addresses parse back", "statement": "Parsing the text produced by to_ipv4or6_string() for an address (plain, with port, with mask) with a parser allowing that syntax and no lookup gives exactly one range holding the same address, port and mask and no error.", "quantifier": "every addr value", "why_tests_cant": "2^128 addresses, 2^16 ports, 129 masks.", "anchors": ["libaddr/addr_parser.cpp: addr_parser::parse", "libaddr/addr.cpp: addr::to_ipv4or6_string"]}
{"id": "C45", "title": "Required address and port are enforced", "statement": "With ALLOW_REQUIRED_ADDRESS every returned range comes from an address written in the input (never from the defaults) and with ALLOW_REQUIRED_PORT every one carries a port written in the input or the default port; otherwise an error is reported.", "quantifier": "every input string, every configuration", "why_tests_cant": "All inputs.", "anchors": ["libaddr/addr_parser.cpp: addr_parser::parse_address4, parse_address6, parse_address_port"]}
{"id": "C46", "title": "Entries with errors yield no range", "statement": "When every entry of the input fails to parse, the result is empty; each returned range comes from an entry, and an entry which reported an error about its mask contributes none.", "quantifier": "every input string", "why_tests_cant": "All inputs.", "anchors": ["libaddr/addr_parser.cpp: addr_parser::parse, parse_cidr, parse_mask"]}
{"id": "C47", "title": "Unix address text is canonical and bounded", "statement": "A path accepted by addr_unix contains no doubled slash and no trailing slash (except the root), its length always fits sun_path together with its terminator, the unused bytes of sun_path are zero, and refused paths leave the object as it was.", "quantifier": "every string given to the constructors and setters, every history of calls", "why_tests_cant": "All strings up to any length, including those at the 107/108 byte limits.", "anchors": ["libaddr/addr_unix.cpp: addr_unix::verify_path, set_file, set_abstract, set_uri, make_unnamed"]}
{"id": "C48", "title": "Unix address equality", "statement": "Two addr_unix objects compare equal exactly when they are of the same kind (unnamed, file, abstract) and have the same name; the six operators form a total order.", "quantifier": "every pair of addr_unix objects obtained through the public interface", "why_tests_cant": "All pairs of names; relies on the zero padding.", "anchors": ["libaddr/addr_unix.cpp: addr_unix::operator ==, <, ...; get_un, set_un"]}
{"id": "C49", "title": "Unix URI round trip", "statement": "set_uri(to_uri()) restores the same kind, name and scheme.", "quantifier": "every addr_unix obtained through the public interface", "why_tests_cant": "Names may contain URI delimiters.", "anchors": ["libaddr/addr_unix.cpp: addr_unix::to_uri, addr_unix::set_uri, set_scheme"]}
{"id": "C50", "title": "Interface cache serves no list older than its TTL", "statement": "With a non-decreasing clock, whatever the interleaving of threads calling iface::get_local_addresses(), the list returned was fetched no longer than the TTL before the call that returns it.", "quantifier": "every interleaving of any number of threads, every clock reading", "why_tests_cant": "Schedules cannot be enumerated by tests.", "anchors": ["libaddr/iface.cpp: iface::get_local_addresses, iface::set_local_addresses_cache_ttl"]}
{"id": "C51", "title": "Reset of the interface cache is effective", "statement": "After reset_local_addresses_cache() returns, every later get_local_addresses() returns a list fetched after the reset began.", "quantifier": "every interleaving of any number of threads", "why_tests_cant": "Race between a reset and a fetch in flight.", "anchors": ["libaddr/iface.cpp: iface::reset_local_addresses_cache, iface::get_local_addresses"]}
{"id": "C52", "title": "Stream manipulators neither leak nor share", "statement": "For any sequence of setaddrmode(), setaddrsep(), copyfmt(), swap() and destruction over any number of streams, each stream owns at most one settings block which no other stream points to, nothing is freed twice, and when all streams are gone nothing is left allocated; writing with one stream uses the settings last given to that stream or copied to it.", "quantifier": "every finite history over any number of streams", "why_tests_cant": "Ownership over unbounded histories of several objects.", "anchors": ["libaddr/addr.h: basic_stream_event_callback, operator << (_setaddrmode), operator << (_setaddrsep), get_ostream_index"]}
{"id": "C53", "title": "Route table addresses decode", "statement": "The hexadecimal little-endian fields of /proc/net/route decode to the IPv4 address the kernel wrote.", "quantifier": "all 2^32 addresses", "why_tests_cant": "Exhaustive domain.", "anchors": ["libaddr/route.cpp: hex_to_addr, get_ipv4_routes"]}
{"id": "C54", "title": "Reading the route table is free of undefined behaviour", "statement": "get_ipv4_routes() never reads outside of the words of a line, whatever the text of the file.", "quantifier": "every file content", "why_tests_cant": "All file contents.", "anchors": ["libaddr/route.cpp: get_ipv4_routes, readwords"]}
{"id": "C55", "title": "Validator accepts exactly what the parser accepts", "statement": "validator_address::validate(v) is true exactly when the configured parser parses v without error.", "quantifier": "every validator configuration, every value", "why_tests_cant": "All strings and configurations.", "anchors": ["libaddr/validator_address.cpp: validator_address::validate"]}
{"id": "C56", "title": "A default mask given to the parser is used", "statement": "When a default mask for IPv4 (IPv6) was set and mask mode is on, an IPv4 (IPv6) entry without a mask gets that mask.", "quantifier": "every default mask accepted by set_default_mask(), every entry", "why_tests_cant": "All masks and entries.", "anchors": ["libaddr/addr_parser.cpp: addr_parser::set_default_mask4, set_default_mask6, parse_cidr", "libaddr/validator_address.cpp"]}
{"id": "C57", "title": "Printing an address never crashes", "statement": "to_ipv4or6_string(mode) returns a text or throws addr_unexpected_mask, it never runs into undefined behaviour; it throws exactly when the mask of an IPv4 address has to be printed and is not one of an IPv4 address.", "quantifier": "every addr, every mode (all 2^32 flag combinations), every content of /etc/protocols and /etc/services", "why_tests_cant": "Depends on the flags, on the address and on the databases of the system.", "anchors": ["libaddr/addr.cpp: addr::to_ipv4or6_string, addr::get_port_name, addr::get_protocol_name"]}
{"id": "C58", "title": "The full text identifies address, port and mask", "statement": "Two addr objects with the same to_ipv4or6_string(STRING_IP_ALL) have the same address, port and mask.", "quantifier": "every pair of addr objects for which the text can be built", "why_tests_cant": "All pairs of 2^128 addresses, 2^16 ports and 2^128 masks.", "anchors": ["libaddr/addr.cpp: addr::to_ipv4_string, addr::to_ipv6_string"]}
{"id": "C59", "title": "The text of a range identifies its bounds", "statement": "addr_range::to_string() never fails when only addresses are printed; a range which has addresses prints as its bounds with a dash, two such ranges with the same text have the same bounds; a range without addresses prints as a text no other range has; a vector prints as the texts of its ranges joined by the separator.", "quantifier": "every range, every vector of ranges", "why_tests_cant": "All pairs of ranges, vectors of any length.", "anchors": ["libaddr/addr_range.cpp: addr_range::to_string"]}
{"id": "C60", "title": "A Unix address survives sockaddr_un, text and socket", "statement": "get_un() followed by set_un(), to_string() followed by the setter of the same kind, and set_from_socket() on a socket bound to the address all give an equal addr_unix back; set_from_socket() reads nothing beyond the length the system gave, and it changes nothing when it returns false or throws.", "quantifier": "every addr_unix obtained through the public interface, every content of the buffer beyond the length", "why_tests_cant": "All names, and all the garbage an uninitialised buffer may hold.", "anchors": ["libaddr/addr_unix.cpp: addr_unix::get_un, set_un, to_string, set_file, set_abstract, set_from_socket"]}
{"id": "C61", "title": "Route flags are those of the kernel", "statement": "get_flags() of a route read from the table of the kernel is the number the kernel printed, and flags_to_string() has the letter of a flag exactly when it is set.", "quantifier": "every route the kernel can print, every value of the flags", "why_tests_cant": "The usual flags (0001, 0003, 0005) read the same in decimal and in hexadecimal; a test on a real machine sees no other.", "anchors": ["libaddr/route.cpp: get_ipv4_routes, flags_to_string"]}
{"id": "C62", "title": "The default route", "statement": "find_default_route() returns the route to 0.0.0.0/0 and nothing else; nothing when there is none.", "quantifier": "every table", "why_tests_cant": "All tables, in all orders, with overlapping prefixes as VPN clients write them.", "anchors": ["libaddr/route.cpp: find_default_route"]}
{"id": "C63", "title": "The list of the interfaces is the one of the system", "statement": "iface::get_local_addresses() builds one interface per entry of getifaddrs() which has an IPv4 or IPv6 address, in the same order, with its name, flags, address and mask; the broadcast and destination addresses are those of the entry when the flag is set and the entry has one, and the default address otherwise. It never runs into undefined behaviour.", "quantifier": "every list of entries", "why_tests_cant": "A machine has one set of interfaces; all lists, flags, masks and missing pointers.", "anchors": ["libaddr/iface.cpp: iface::get_local_addresses"]}
{"id": "C64", "title": "The interface of an address", "statement": "find_addr_interface(a) returns the first interface whose network has the address; if there is none and the default route is allowed, the interface named by the default route; it never runs into undefined behaviour.", "quantifier": "every list of interfaces, every route table, every address", "why_tests_cant": "Depends on the machine, and on getifaddrs() failing.", "anchors": ["libaddr/iface.cpp: find_addr_interface"]}
{"id": "C65", "title": "Broadcast addresses are recognised", "statement": "is_broadcast_address(a) is true exactly when a is an IPv4 address which is the broadcast address of an interface.", "quantifier": "every list of interfaces, every address", "why_tests_cant": "Overlapping networks are rare on test machines.", "anchors": ["libaddr/iface.cpp: is_broadcast_address"]}
{"id": "C66", "title": "All the interfaces have an index", "statement": "get_interface_name_index() lists every interface of the system once, in the order of the indexes.", "quantifier": "every assignment of names to indexes", "why_tests_cant": "Indexes have gaps only after interfaces were removed.", "anchors": ["libaddr/iface.cpp: get_interface_name_index"]}
{"id": "C67", "title": "parse() answers", "statement": "A call to addr_parser::parse() returns a list of ranges for every text, whatever was done with the parser before: what is wrong with the text is reported through the error messages only; it neither throws nor runs into undefined behaviour.", "quantifier": "every text, every sequence of calls made to the parser before, every name service whose answers are well formed", "why_tests_cant": "The texts and the configurations are unbounded; only a few malformed texts can be tried.", "anchors": ["libaddr/addr_parser.cpp: addr_parser::parse, parse_cidr, parse_address_range, parse_address_port, parse_address4, parse_address6, parse_mask"]}
{"id": "C69", "title": "The options of the validator are those documented", "statement": "The address validator allows exactly what the documentation of its options says, the last option about a feature deciding; its construction never fails, and it logs a message exactly when an option is not as documented.", "quantifier": "every list of options", "why_tests_cant": "Options can be given in any number, order and combination, with any values.", "anchors": ["libaddr/validator_address.cpp: validator_address::validator_address"]}
{"id": "C70", "title": "address=no and address=required mean what they say", "statement": "With address=no the validator refuses a text with an address; with address=required an address must be specified, though it may still come from the default address.", "quantifier": "every list of options, every text", "why_tests_cant": "Universal over texts; the interplay of options and defaults is combinatorial.", "anchors": ["libaddr/validator_address.cpp:28-43", "libaddr/addr_parser.cpp: addr_parser::parse_address_port"]}
{"id": "C68", "title": "string_to_addr() returns the one address its parameters describe", "statement": "The function returns an address or throws addr_invalid_argument, nothing else; it refuses exactly the defaults and protocols the parser refuses and the texts which do not give one address. The address is of the protocol asked for (TCP when none is given), comes from the text or from the defaults, and the text of any address converts back to it.", "quantifier": "every text, default address, default port, protocol, mask flag, every answer of the name service", "why_tests_cant": "Universal over texts, parameters and answers of the name service; a test sees the answers of one machine.", "anchors": ["libaddr/addr_parser.cpp:2314-2392", "libaddr/addr_parser.h:139-144"]}
{"id": "C71", "title": "No port is read when ports are not allowed", "statement": "With neither ALLOW_PORT nor ALLOW_REQUIRED_PORT, no address or bound of a range returned by parse() comes with a port written in the text; without lookup its port is 0. A default port remains usable for addresses written without one.", "quantifier": "every text, configuration and answer of the name service", "why_tests_cant": "Universal over texts: the syntax is decided by several characters (colons, dots, brackets) and only some combinations take the path without the check.", "anchors": ["libaddr/addr_parser.cpp:1315-1442", "libaddr/addr_parser.cpp:1458-1571", "libaddr/addr_parser.cpp:1886-1963"]}
{"id": "C72", "title": "validate-ip tells valid addresses apart by its exit status", "statement": "The exit status of validate-ip is 0 when the options make sense and every argument parses without errors, 1 otherwise. With --canonicalize, standard output has one line per address of the accepted arguments in order; without --quiet, standard error has one message per refused argument.", "quantifier": "every command line (values of the options and list of arguments), every answer of the name service", "why_tests_cant": "Universal over the arguments, the options and the answers of the name service; a test runs a handful of command lines.", "anchors": ["tools/validate_ip.cpp:259-390"]}
{"id": "C73", "title": "The canonical form printed by validate-ip is stable", "statement": "When validate-ip --canonicalize accepts its arguments, giving it the lines it printed as arguments, with the same options, prints the same lines again with exit status 0.", "quantifier": "every command line accepted, every answer of the name service which reads numeric addresses", "why_tests_cant": "Universal over all accepted texts; a composition of the printer and the parser over all addresses, ports and masks.", "anchors": ["tools/validate_ip.cpp:259-390", "libaddr/addr.cpp:1200-1400"]}
{"id": "C74", "title": "validate-ip --mask allows masks without requiring them", "statement": "The arguments validate-ip accepts without --mask are accepted with --mask; the option only adds the syntax \"address/bits\", with a number of bits which is not larger than the address.", "quantifier": "every command line, every answer of the name service", "why_tests_cant": "Compares two configurations over all texts.", "anchors": ["tools/validate_ip.cpp:284-303", "libaddr/addr_parser.cpp:1215-1287"]}
{"id": "C75", "title": "The interfaces listed by the tool ifaces", "statement": "ifaces prints one line per interface of the kind asked for (--public, --private, --loopback, --default; the last one counts), in the order of the system and no other, with its name, flags and addresses as the words of the line; --name-only prints each name once; unknown options and a machine without interfaces give a message and a nonzero exit status. --default shows the interfaces which have a default route.", "quantifier": "every list of interfaces, every route table of the kernel, every command line, every answer of the name service", "why_tests_cant": "Universal over the interfaces and addresses of all machines, and the tools have no tests.", "anchors": ["tools/ifaces.cpp:55-248", "libaddr/iface.cpp:240-390", "libaddr/addr.cpp:1258-1529"]}
{"id": "C76", "title": "The routes listed by the tool ipv4-routes", "statement": "ipv4-routes prints one line per route of the kernel, in its order; the words of a line are the interface, destination, gateway, flag letters, counters, metric, mask, MTU, window and round trip time of the route. --default keeps the default routes, --hide-headers removes the titles; no routes and unknown options give a message and a nonzero exit status.", "quantifier": "every route table which the kernel can print, every command line", "why_tests_cant": "Composition of the kernel's format, the reader and the column layout over all tables; the tools have no tests.", "anchors": ["tools/ipv4_routes.cpp:48-144", "libaddr/route.cpp:100-383"]}
{"id": "C77", "title": "The defaults of the address validator are those of its option default", "statement": "With `default=<address>:<port>/<mask> ...` the default address of the family of each address, the default port and the default mask of that family become those written, each kept as it was when the address is the any address, the port is 0 or the mask is full; nothing else changes.", "quantifier": "every list of options, every list of values which denote addresses, every answer of the name service", "why_tests_cant": "Universal over addresses, ports, masks, and over the defaults set by earlier options; the tests look at whether values are valid, not at the defaults.", "anchors": ["libaddr/validator_address.cpp: validator_address::validator_address", "libaddr/addr_parser.cpp: set_default_address, set_default_port, set_default_mask", "libaddr/addr.cpp: get_mask_size"]}
{"id": "C78", "title": "Answering a datagram reaches its sender", "statement": "For sockets made with `create_socket()` and used through the library only, `recvfrom()` of a waiting datagram does not throw, makes the object the address of the sender, and `sendto()` with this object sends to exactly this sender. Without a datagram the object is the local end of the socket. An accepted `bind()` leaves in the object the address it had and the port the socket got.", "quantifier": "every sequence of calls on any number of sockets with any objects, every arrival of datagrams, every choice of the kernel", "why_tests_cant": "Universal over the histories of the sockets and over the senders; tests bind loopback addresses of one family.", "anchors": ["libaddr/addr.cpp: addr::create_socket, addr::bind, addr::sendto, addr::recvfrom, addr::set_from_socket"]}
{"id": "C79", "title": "The language of the parser without lookups", "statement": "Without lookups, masks and ranges the parser accepts a text exactly when, white space around it removed, it is `address`, `address:port`, `[address]` or `[address]:port` (ports where they are allowed) with an address in dotted decimal or in the syntax of RFC 4291 and a port from 0 to 65535. What it returns is the address and the port written, and the text of the address as the host name. Any other text adds one error and no address. There is only one way to read a text.", "quantifier": "every text, every configuration of the parser without lookups, masks and ranges, every conversion of numbers", "why_tests_cant": "Exactness over all texts: tests show some texts which are accepted and some which are not, the claim is that there are no others.", "anchors": ["libaddr/addr_parser.cpp: addr_parser::parse, parse_cidr, parse_address, parse_address4, parse_address6, parse_address_port"]}
{"id": "C80", "title": "is_hostname_an_ip() recognises the texts of addresses", "statement": "is_hostname_an_ip() is true exactly when the host name is empty or writes an IPv4 or IPv6 address; it is true of every address which the parser returns without lookups.", "quantifier": "every host name; every text, configuration without lookups and environment", "why_tests_cant": "Exactness over all strings.", "anchors": ["libaddr/addr.cpp: addr::is_hostname_an_ip", "libaddr/addr_parser.cpp: addr_parser::parse_address_port"]}
{"id": "C81", "title": "Texts without an address", "statement": "A text which leaves the address out (`:port`, `[]`, `[]:port`) is the default address with the port written; an empty text is skipped silently; when there is no default address an address is mandatory.", "quantifier": "every such text, every configuration of the parser without lookups, masks and ranges", "why_tests_cant": "Universal over texts, defaults and configurations.", "anchors": ["libaddr/addr_parser.cpp: addr_parser::set_default_address, parse, parse_address, parse_address_port"]}
{"id": "C82", "title": "Access lists", "statement": "A list of networks (addresses, and addresses followed by `/` and a number of bits) is read without an error, whatever the sort order, and `address_match_ranges()` on the result is true of an address exactly when it is in one of the networks written.", "quantifier": "every list, every environment, every address, every parser which reads lists with masks and without lookups, default masks and default ports", "why_tests_cant": "Universal over lists of any length, over texts of networks and over addresses; it composes parsing, masks, sorting and matching.", "anchors": ["libaddr/addr_parser.cpp: addr_parser::parse, parse_cidr, parse_mask", "libaddr/addr_range.cpp: address_match_ranges", "libaddr/addr.cpp: addr::match"]}
{"id": "C83", "title": "The options of the parser", "statement": "Each setter of the parser sets the option it is about to what it was given, changes nothing else, and refuses the values which are not documented without any change: default addresses and masks by family, default port from -1 to 65535 (as a number or as a text), protocol IP, TCP or UDP, sort orders with one family first. No sequence of calls leads to options outside of these.", "quantifier": "every parser, every argument, every history of calls", "why_tests_cant": "Universal over texts, numbers and histories of calls, with frame conditions over all options.", "anchors": ["libaddr/addr_parser.cpp: addr_parser::set_default_address, set_default_port, set_default_mask, set_protocol, clear_protocol, set_sort_order"]}
{"id": "C84", "title": "Names of addresses and ports", "statement": "`get_name()` is the name the system knows for the address (an empty text if none) and depends on nothing else; `get_service()` is the service of the port for the protocol (its number when it has none, an empty text for port 0) and agrees with `get_port_name()`; `set_port(get_service())` leaves the port as it is; a name which is not a service of the protocol is refused without a change.", "quantifier": "every address which the API can make, every system with any names of addresses and any consistent list of services", "why_tests_cant": "The databases of the system are arbitrary; a test runs on one machine.", "anchors": ["libaddr/addr.cpp: addr::get_name, get_service, get_port_name, set_port(char const *)"]}
{"id": "C85", "title": "Comparing socket addresses", "statement": "The operators on `sockaddr_in6` compare all the fields: two structures are equal exactly when their fields are, `<` is a total order (family, port as a number, flow, address as a number, scope) and the other operators follow from these two; for two `addr` with the same port, flow and scope the order of their structures is the one of the addresses.", "quantifier": "every structure", "why_tests_cant": "Universal over 224 bits, twice; transitivity over three structures.", "anchors": ["libaddr/addr.h: operator == != < <= > >= (sockaddr_in6 const &, sockaddr_in6 const &)"]}
{"id": "C86", "title": "The texts of ranges, and lists of networks and ranges", "statement": "With ALLOW_ADDRESS_RANGE and without lookups, the texts read without an error are exactly `<ip>`, `<ip>-<ip>`, `<ip>-` and `-<ip>`, alone, in brackets, or followed by a port; the result holds the bounds which are written, each with the port, and an address matches it exactly when it is between the two bounds (or is the only bound); any other text gives no range and one error; an empty range matches nothing and is left out with SORT_NO_EMPTY. A list of networks and ranges read by a parser which does not merge is matched exactly by the addresses in one of them.", "quantifier": "every text without a NUL character, every list, every environment, every setting of the other flags, default port and sort order without SORT_MERGE", "why_tests_cant": "The set of texts and the set of addresses are both infinite or huge; the claim is an equivalence, so refused texts count too.", "anchors": ["libaddr/addr_parser.cpp: addr_parser::parse_address_range_port, parse_address4, parse_address6, parse_address_port_ignore_duplicates", "libaddr/addr_range.cpp: addr_range::match, address_match_ranges"]}
{"id": "C87", "title": "Printed ranges are read back", "statement": "The text which addr_range::to_string() gives to a range with at least one address is read back by a parser which allows ranges as one range with the same bounds: a configuration written from ranges in memory is read again as the same ranges, in every mode, the default one included; and a comma separated list of such texts is matched by the same addresses as the ranges themselves.", "quantifier": "every range with at least one address, every list of such ranges, every environment, every parser which allows ranges (and ports and masks for the default mode) without lookups", "why_tests_cant": "A round trip over all pairs of 128 bit addresses and over lists of any length; tests of to_string() and of the parser are made apart from each other, on texts which only one of them handles.", "anchors": ["libaddr/addr_range.cpp: addr_range::to_string", "libaddr/addr_parser.cpp: addr_parser::parse_address_range_port"]}
{"id": "C88", "title": "The language of the parser with masks", "statement": "With ALLOW_MASK, without address-like masks, default masks and lookups, the texts read without an error are exactly an entry (an address, in brackets or not, with a port or not), alone or followed by a slash and a decimal number of bits which its address can have (32 for the IPv4 syntax, 128 in brackets or with the IPv6 syntax; nothing after the slash is no mask); the result has the address, the port and a mask of that many ones, and is matched by exactly the addresses of that network; any other text gives no range and exactly one error.", "quantifier": "every text without a NUL character, every environment, every setting of the other flags and of the default port", "why_tests_cant": "Acceptance and refusal over the infinite set of texts is an equivalence; the match is over all 128 bit addresses.", "anchors": ["libaddr/addr_parser.cpp: addr_parser::parse_cidr, parse_mask, parse_address"]}
{"id": "C89", "title": "The values which the address validator accepts", "statement": "For an address validator of which the options neither allow lookups, ranges, lists and comments nor give a default, a value is valid, whatever was validated before, exactly if without the white space around it, it is an address, which may be left out unless address=required, and a port, which must be there with port=required, may be there with port=yes or no port option, and must be a number of at most 65535; with mask=yes a slash and a decimal number of bits which the address can have may follow.", "quantifier": "every list of options meeting the conditions, every value without a NUL character, every list of earlier calls, every environment", "why_tests_cant": "Validity is an equivalence over the infinite set of values and of lists of options.", "anchors": ["libaddr/validator_address.cpp: validator_address::validator_address, validate", "libaddr/addr_parser.cpp: addr_parser::parse"]}
{"id": "C90", "title": "Texts with a mask and without an address", "statement": "With ALLOW_MASK and where the address is not required, a text which writes no address (nothing, \":port\", \"[]\" or \"[]:port\", then possibly a slash and a number of bits) is the default address with that port and that mask, and is matched by exactly the addresses of that network; where one default address is defined, it is the one used.", "quantifier": "every text without a NUL character, every environment, every setting of the other flags and of the defaults; for the validator, every history of calls", "why_tests_cant": "Which default is used depends on the brackets, the mask, and on which defaults are defined; acceptance and refusal over all texts is an equivalence.", "anchors": ["libaddr/addr_parser.cpp: addr_parser::parse_address, parse_address4, parse_address6, parse_address_port, parse_mask", "libaddr/addr_parser.cpp: addr_parser::set_default_address"]}
{"id": "C91", "title": "The language of lists of addresses", "statement": "A text with several addresses is read as its items, the texts between the separators allowed: each item which writes an address (with its port and its mask, or left out) gives one result, in the order of the text; each other item gives one error and does not affect the others; empty and blank items are skipped. The list is matched by exactly the addresses of the networks its items write. The validator accepts a list exactly when it accepts each item.", "quantifier": "every text without a NUL character, every environment, every choice of separators, ports, masks and defaults; for the validator every set of options without comments and every history of calls", "why_tests_cant": "The lists and their items are unbounded; the theorem is by induction over the items, and the match is over all addresses.", "anchors": ["libaddr/addr_parser.cpp: addr_parser::parse", "libaddr/validator_address.cpp: validator_address::validate"]}
{"id": "C92", "title": "What is looked up, and what is made of the answers", "statement": "With lookups (the default), a text which is one entry asks getaddrinfo() exactly one question: the host written (or the default address), the port written as the service (or the default port, or 0; a number or the name of a service), and the protocol of the parser. The result is the list of the addresses of the answers, in their order, each with the host as its host name and the mask of one address. If the question cannot be answered, or the text is no entry, there is no address and exactly one more error. Numeric addresses and ports are read as without lookups.", "quantifier": "every text (any characters), every environment, every answer of getaddrinfo() with valid families and protocols, every configuration which reads one entry without masks and ranges", "why_tests_cant": "The texts, the answers of the resolver and the configurations are unbounded, and a test has one resolver.", "anchors": ["libaddr/addr_parser.cpp: addr_parser::parse_address_port", "libaddr/addr_parser.cpp: addr_parser::parse_address4", "libaddr/addr_parser.cpp: addr_parser::parse_address6"]}
{"id": "C93", "title": "The protocol of the addresses returned", "statement": "Whatever the text (lists, ranges, masks, sorting and merging included), the bounds of the ranges returned by parse() are IP, TCP or UDP addresses, and once set_protocol() was called they all have that protocol. Without lookups and without a protocol they are TCP addresses; with lookups and without a protocol each address found is returned for TCP, UDP and IP.", "quantifier": "every text, every environment (for lookups: one which obeys the protocol asked for, as the GNU C library does), every configuration of the parser", "why_tests_cant": "The texts, the lists and the answers of the resolver are unbounded; a test shows the protocol of a few addresses.", "anchors": ["libaddr/addr_parser.cpp: addr_parser::set_protocol", "libaddr/addr_parser.cpp: addr_parser::clear_protocol", "libaddr/addr_parser.cpp: addr_parser::parse_address_port", "libaddr/addr_range.cpp: addr_range::union_if_possible"]}
{"id": "C94", "title": "Masks written as addresses", "statement": "With ALLOW_ADDRESS_MASK the mask of an entry is a number of bits, or an address of the kind of the entry: four bytes in dotted decimal notation for an IPv4 address, an IPv6 address in brackets otherwise; without a mask the default mask of the parser counts. The mask of the address returned has exactly these bits (contiguous or not) and the address then matches the addresses with the same bits where the mask has ones. Any other mask is refused with exactly one more error and no address.", "quantifier": "every text without a NUL character, every environment (in which getaddrinfo() does not succeed with an empty list), every configuration which reads one entry with address masks and without lookups, every default mask, every address matched", "why_tests_cant": "There are 2^32 and 2^128 masks in unboundedly many notations, each with any address, port and default mask.", "anchors": ["libaddr/addr_parser.cpp: addr_parser::parse_mask", "libaddr/addr_parser.cpp: addr_parser::parse_cidr", "libaddr/addr.cpp: addr::match"]}
{"id": "C95", "title": "Lists and files of addresses with comments", "statement": "A list in which comments are allowed (for example a file with one address per line) is read as the addresses written before the comments, in their order: parse() returns, for each piece of text left once the comments are removed, exactly the address, port and mask it writes, or one more error when it writes none, and the result is matched by exactly the addresses of the networks written. A line which is empty, or blank before its comment, contributes nothing.", "quantifier": "every text without a NUL character, every configuration of a list (any separators, any comment characters) without lookups, ranges, sorting, address masks and default masks, every address matched", "why_tests_cant": "All texts, all lists of lines and all combinations of separators and comment characters.", "anchors": ["libaddr/addr_parser.cpp: addr_parser::parse", "libaddr/addr_parser.cpp: addr_parser::parse_cidr", "libaddr/addr_range.cpp: address_match_ranges"]}
{"id": "C96", "title": "Merged lists are canonical", "statement": "With SORT_MERGE the ranges returned by parse() are the canonical form of the addresses written: two texts of which the entries cover the same addresses give the same intervals in the same order, so that the order of the entries, their repetition and the way in which the addresses are split between them have no effect, and no list of intervals which covers the same addresses is shorter. When masks are not allowed merging never fails, and the result matches exactly the addresses which the list matches without merging.", "quantifier": "every pair of texts, every environment, every configuration with SORT_MERGE (which puts the same family first), every list of intervals, every address matched", "why_tests_cant": "Equality of the results over all pairs of texts which cover the same set among 2^128 addresses, and minimality among all lists of intervals.", "anchors": ["libaddr/addr_parser.cpp: addr_parser::parse", "libaddr/addr_range.cpp: addr_range::union_if_possible", "libaddr/addr_range.cpp: addr_range::compare", "libaddr/addr_range.cpp: address_match_ranges"]}
{"id": "C97", "title": "Masks written after ranges", "statement": "A mask written after a range of addresses is either refused with an error or counts: the addresses matched by the result are those which share the bits of the mask with an address of the range.", "quantifier": "every text without a NUL character, every configuration which reads one entry with ranges and masks, without lookups, address masks and default masks, every address matched", "why_tests_cant": "All texts of ranges (with one bound or two, in brackets, with ports), all masks and all addresses matched.", "anchors": ["libaddr/addr_parser.cpp: addr_parser::parse_cidr", "libaddr/addr_parser.cpp: addr_parser::parse_mask", "libaddr/addr_parser.cpp: addr_parser::parse_address_range_port", "libaddr/addr_range.cpp: addr_range::match"]}
{"id": "C98", "title": "Calling optimize_vector() until nothing changes", "statement": "One call of optimize_vector() makes up no network and loses none, even when it throws: each network of the result was in the vector and each network of the vector is within one of the result. Calling it until it returns false ends, for networks of one family, after at most as many calls as entries removed plus one, and leaves exactly the networks which are within no other network of the vector, each once, whatever their order; the addresses matched are unchanged.", "quantifier": "every vector of addresses, in any order and with any masks and duplicates; ending: every vector of IPv4 networks or of IPv6 networks", "why_tests_cant": "All vectors: a fixed point reached by repeated calls, for any number of networks.", "anchors": ["libaddr/addr_range.cpp: optimize_vector", "libaddr/addr_range.cpp: addr_range::union_if_possible", "libaddr/addr_range.cpp: addr_range::from_cidr"]}
{"id": "C99", "title": "The addresses of a list of ranges", "statement": "to_addresses(ranges, limit) lists the addresses of the ranges, those of one range after those of the range before it and in increasing order within each, or throws out_of_range when there are more of them than the limit. What is listed are the addresses which address_match_ranges() finds; of a list parsed with SORT_MERGE each address is listed once.", "quantifier": "every list of ranges which to_addresses() can list one by one (C26), in any order, overlapping or not; every limit below the largest size_t", "why_tests_cant": "All lists and limits: sizes are added up in a size_t, which wraps around only for lists no test could enumerate.", "anchors": ["libaddr/addr_range.cpp: addr_range::to_addresses(vector_t ranges, std::size_t limit)", "libaddr/addr_range.cpp: addr_range::to_addresses", "libaddr/addr_range.cpp: addr_range::size", "libaddr/addr_parser.cpp: addr_parser::parse"]}
{"id": "C100", "title": "Intersection and union of networks", "statement": "The intersection of the ranges of two networks is empty, when they have no address in common, or it is the smaller network, which to_cidr() then returns. Their union is a network, and to_cidr() succeeds and returns the network of the addresses of both, exactly when one is within the other or both are the halves of one network; the union of networks of at least 96 bits never throws.", "quantifier": "every pair of addresses with a mask of n ones followed by zeros, whatever their families; for the union, every pair for which it does not throw (C30)", "why_tests_cant": "All pairs of networks: 2^128 addresses and 129 sizes each.", "anchors": ["libaddr/addr_range.cpp: addr_range::from_cidr", "libaddr/addr_range.cpp: addr_range::to_cidr", "libaddr/addr_range.cpp: addr_range::intersection", "libaddr/addr_range.cpp: addr_range::union_if_possible"]}
{"id": "C101", "title": "The text of a merged list is a normal form", "statement": "A list read with SORT_MERGE and SORT_NO_EMPTY and printed (addresses separated by commas) gives a text which the same parser reads without an error as ranges with the same bounds in the same order, which are printed as the same text again and are matched by the same addresses as the list first read. Two lists which write the same addresses are printed as the same text.", "quantifier": "for all texts, all parsers which allow commas and ranges but no lookups, masks, comments or default port, all error states, all databases of names", "why_tests_cant": "Stability of the text needs the language of the parser, the sort, the merge and the printing to agree on every list of ranges; a test tries a few lists.", "anchors": ["libaddr/addr_parser.cpp:1037-1201 (parse)", "libaddr/addr_range.cpp (to_string, union_if_possible)", "libaddr/addr_range.h:71-74 (to_string of a vector)"]}
{"id": "C102", "title": "What a merged list of networks matches", "statement": "A parser with SORT_MERGE reads a list of networks without an error. It throws out_of_range exactly when two of the networks written clash: they make one run of numbers which starts with an IPv4 address, and one of them counts less than 96 of the 128 bits. Otherwise an address matches the list returned exactly when it is one of the numbers written, or is in the network of a number written which has no number next to it written: the mask of a network is lost as soon as an address right before or right after its number is written. So a list of networks written with their first address, and a list of addresses alone, are always merged and match as without merging.", "quantifier": "for all lists of networks, in all the texts of IPv4 and IPv6 networks, all parsers which read lists with masks and merge them, whatever the other sort flags, all error states, all databases of names, all addresses matched", "why_tests_cant": "Which mask survives depends on the order of the sort and on the runs which the merge builds across the whole list, for any number of networks; a test tries a few lists.", "anchors": ["libaddr/addr_parser.cpp:1130-1198 (sorting and merging in parse)", "libaddr/addr_range.cpp:728-770 (union_if_possible)", "libaddr/addr_range.cpp:791-815 (match)", "libaddr/addr.cpp:680-708 (set_mask_count)"]}
{"id": "C103", "title": "When merging throws", "statement": "With SORT_MERGE, parse() of a text whose ranges are not empty (as with SORT_NO_EMPTY) throws out_of_range exactly when two of the ranges read are in the same run of addresses (the addresses of all the ranges, without a gap) and the mask of one of them is not a number of bits, or is of less than 96 bits while the run starts with an IPv4 address; otherwise it returns a list. Ranges of which no two overlap or touch are always merged.", "quantifier": "for all texts, all parsers which merge, whatever they allow, all error states, all answers of the system", "why_tests_cant": "Which mask is given to which address depends on the runs which the sort and the merge build out of any number of ranges; a test tries a few lists.", "anchors": ["libaddr/addr_parser.cpp:1130-1198 (sorting and merging in parse)", "libaddr/addr_range.cpp:728-770 (union_if_possible)", "libaddr/addr.cpp (set_mask_count, get_mask_size)"]}
{"id": "C104", "title": "What a merged list matches", "statement": "With SORT_MERGE, when parse() of a text whose ranges are not empty, and have a first address or no mask, returns a list, an address matches that list exactly when it is between the bounds of one of the ranges read, or it matches the mask of one of them which stands alone: a single address which no other range overlaps or touches, except the same address again. Merging therefore never adds an address, and changes nothing when each address which has a mask stands alone.", "quantifier": "for all texts, all parsers which merge, whatever they allow, all error states, all answers of the system, all addresses", "why_tests_cant": "Which ranges are next to one another depends on the whole list and on the order in which the sort and the merge take it; a test tries a few lists and a few addresses.", "anchors": ["libaddr/addr_parser.cpp:1130-1198 (sorting and merging in parse)", "libaddr/addr_range.cpp:728-770 (union_if_possible)", "libaddr/addr_range.cpp (match, address_match_ranges)"]}
{"id": "C105", "title": "A list which was read is written and read again", "statement": "A list of networks and ranges read by a parser and printed with addr_range::to_string() (addresses, masks where they are needed, commas between the entries) gives a text which the same parser reads without an error as a list which the same addresses match: a configuration can be loaded, saved and loaded again.", "quantifier": "for all texts of networks and ranges, all parsers of such lists which allow commas and do not merge, all other sort orders, all error states, all databases of names, all answers of the system, all addresses", "why_tests_cant": "The printer and the parser are two separate descriptions of the same language; a test compares them on a few addresses, while a single pair of address and mask on which they differ makes a saved configuration unreadable.", "anchors": ["libaddr/addr_range.cpp:530-621 (to_string)", "libaddr/addr.cpp:1258-1529 (to_ipv4_string, to_ipv6_string, to_ipv4or6_string)", "libaddr/addr_parser.cpp:1037-1201 (parse)"]}
{"id": "C106", "title": "The functions of the interface cache are free of data races", "statement": "iface::get_local_addresses(), iface::reset_local_addresses_cache() and iface::set_local_addresses_cache_ttl(), which are documented as thread safe, can be called by any number of threads at any time without a data race: no state is reached where two threads are about to access the same global variable and one of the accesses is a write.", "quantifier": "for all numbers of threads, all sequences of calls, all interleavings of the single accesses, all answers of the system, all times", "why_tests_cant": "A race needs two accesses to meet within nanoseconds and its effect is undefined; the tests are single threaded, and a stress test which passes says nothing about the interleavings which did not happen.", "anchors": ["libaddr/iface.cpp:93-113 (the variables)", "libaddr/iface.cpp:264-393 (get_local_addresses)", "libaddr/iface.cpp:402-408 (reset_local_addresses_cache)", "libaddr/iface.cpp:426-429 (set_local_addresses_cache_ttl)"]}
{"id": "C107", "title": "The critical sections of the interface cache are atomic", "statement": "However the single reads and writes of the threads which call get_local_addresses(), reset_local_addresses_cache() and set_local_addresses_cache_ttl() are interleaved, the variables and the returned lists are those of an execution where each critical section runs at once; the critical section which decides what a call returns takes effect during this call; each critical section which takes effect is one of the function which its thread called; no thread waits for ever; and, while the clock does not go back, a returned list is one which the system answered before, never the empty list which the cache holds in the meantime.", "quantifier": "for all numbers of threads, all sequences of calls, all interleavings of the single accesses, all answers of the system, all times", "why_tests_cant": "The interleavings of the accesses of several threads cannot be enumerated nor provoked by a test.", "anchors": ["libaddr/iface.cpp:264-393 (get_local_addresses)", "libaddr/iface.cpp:402-408 (reset_local_addresses_cache)", "libaddr/iface.cpp:426-429 (set_local_addresses_cache_ttl)"]}
{"id": "C108", "title": "The index of the stream manipulators is allocated once", "statement": "get_ostream_index(), which every stream manipulator and output operator of the library calls, returns the same number in all the calls of all the threads, however they are interleaved; the number comes from one single call to std::ios_base::xalloc(), so no other part of the program has it; and there is no data race.", "quantifier": "for all numbers of threads, all sequences of calls, all interleavings of the single accesses, all other calls to xalloc()", "why_tests_cant": "The first call happens once per process: a test sees one interleaving of it, with one thread.", "anchors": ["libaddr/addr.cpp:277-295 (g_ostream_index_allocated, g_ostream_index)", "libaddr/addr.cpp:3004-3015 (get_ostream_index)"]}
{"id": "C109", "title": "The vectors of interfaces which are returned do not change", "statement": "The vector to which get_local_addresses() returns a shared pointer is never changed by the library afterwards, whatever the other threads call: a caller can iterate over it without a lock. It holds the whole list of one answer of getifaddrs() (one interface per entry with an IP address, in the order of the system), never a list which is still being built nor, while the clock does not go back, the empty vector which the cache holds meanwhile.", "quantifier": "for all numbers of threads, all sequences of calls, all interleavings, all answers of the system, all times, all later moments", "why_tests_cant": "Whether a vector which several threads share is written after it was handed out depends on the interleaving; a test sees a few of them.", "anchors": ["libaddr/iface.cpp:264-393 (get_local_addresses)", "libaddr/iface.cpp:402-408 (reset_local_addresses_cache)"]}
{"id": "C110", "title": "What a merged list of networks and ranges matches, from its text", "statement": "A parser with SORT_MERGE reads a list of networks and of ranges (with one bound or with two in order; those the wrong way round are left out with SORT_NO_EMPTY) without an error. It throws out_of_range exactly when two entries belong to one run of numbers which starts with an IPv4 address and one of them counts less than 96 of the 128 bits. Otherwise an address matches the list returned exactly when its number is written or between the two bounds of a range, or it is in a network whose number no other entry overlaps or touches, except the same number again. So ranges and addresses alone are always merged and match exactly what they cover, and entries which do not overlap or touch match as they are written.", "quantifier": "for all lists of networks and ranges, in all their texts, all parsers which read lists with masks and ranges and merge them, whatever the other sort flags, all error states, all databases of names, all addresses matched", "why_tests_cant": "Which entries are joined depends on the whole list, whatever its length and its order; a test tries a few lists and a few addresses.", "anchors": ["libaddr/addr_parser.cpp:1130-1198 (sorting and merging in parse)", "libaddr/addr_parser.cpp (parse_cidr, parse_address_range)", "libaddr/addr_range.cpp:728-770 (union_if_possible)", "libaddr/addr_range.cpp:791-815 (match)"]}
{"id": "C111", "title": "Resets and the age of lists, seen from the calls of the threads", "statement": "However the single accesses of the threads are interleaved, while the clock does not go back: a list returned by a call to get_local_addresses() which is made after a call to reset_local_addresses_cache() returned was answered by the system after the reset was called, or to a thread which was, when the reset was called, still in the call in which it got this list. A list which the system did not answer during the call which returns it is returned by a call which begins no later than the TTL after the end of the call to which the system answered it, the TTL being 300 seconds or one which was given to set_local_addresses_cache_ttl().", "quantifier": "for all numbers of threads, all sequences of calls, all interleavings of the single accesses, all answers of the system, all times which do not decrease", "why_tests_cant": "The interleavings of the accesses of several threads cannot be enumerated nor provoked by a test; the statement is about the beginnings and the ends of calls, between which anything can happen.", "anchors": ["libaddr/iface.cpp:264-393 (get_local_addresses)", "libaddr/iface.cpp:402-408 (reset_local_addresses_cache)", "libaddr/iface.cpp:426-429 (set_local_addresses_cache_ttl)"]}
{"id": "C112", "title": "When optimize_vector() fails", "statement": "optimize_vector() only removes networks from the vector. It always throws when a mask is not a number of bits. When all the masks are, it throws only if two networks clash: they overlap or are next to each other, one of them has more than 2^32 addresses, and the first or the last address of both together is an IPv4 address. With two entries, or when no network is within another one, it throws out_of_range exactly in that case. Lists of networks of both families as they are usually written (no IPv6 network begins or ends within the block of the IPv4 addresses or right beside it) never make it fail, and the loop `while(optimize_vector(v));` ends; whenever that loop ends no two of the networks which are left clash.", "quantifier": "for all vectors of addresses, of any length, of both families, with any masks", "why_tests_cant": "The failure depends on the order in which pairs of networks of a vector of any length meet and on which of them were removed before; tests only try a few vectors.", "anchors": ["libaddr/addr_range.cpp:1073-1111 (optimize_vector)", "libaddr/addr_range.cpp:728-767 (union_if_possible)", "libaddr/addr.cpp:680-708 (set_mask_count)"]}
{"id": "C113", "title": "A list of networks can be read, optimised and saved", "statement": "A program reads a text of networks with addr_parser (masks and commas allowed, no lookups, no SORT_MERGE), calls optimize_vector() on their addresses until it returns false, and writes what is left, separated by commas, with STRING_IP_ADDRESS | STRING_IP_MASK_IF_NEEDED. Whenever this succeeds, the new text has exactly the largest networks of the first one, each of them once, and reading it reports no error and gives a list which the same addresses match. It succeeds for every list of IPv4 networks and of IPv6 networks which neither begin nor end in the block of the IPv4 addresses or right beside it. What the loop leaves can be written exactly when no IPv4 address is left with a mask of less than 96 bits.", "quantifier": "for all texts which are lists of networks, of any length and of both families, all parser settings of that kind, all system databases", "why_tests_cant": "It joins the parser, the sort, the loop over the vector, the output of addresses and masks, and the parser again, for lists of any length; tests look at each of them on a few values.", "anchors": ["libaddr/addr_parser.cpp (parse)", "libaddr/addr_range.cpp:1073-1111 (optimize_vector)", "libaddr/addr.cpp (to_ipv4or6_string)", "libaddr/addr_range.cpp (to_string)"]}
{"id": "C114", "title": "The order of the entries of a list", "statement": "Writing the entries of a list in another order has no effect on what the list which addr_parser::parse() returns matches. Without SORT_MERGE the same ranges are returned and the same errors reported, in another order only, and with SORT_FULL the bounds of the ranges are even in the same order; with SORT_MERGE the call throws for both texts or for none, and the merged ranges are the same.", "quantifier": "for all texts of any number of entries, all permutations of their entries, all parser settings which read lists, all system databases", "why_tests_cant": "There is one order per permutation of the entries; tests write each list in one order.", "anchors": ["libaddr/addr_parser.cpp:1061-1200 (parse)", "libaddr/addr_range.cpp (union_if_possible, operator <)"]}
{"id": "C115", "title": "Empty ranges in a merged list", "statement": "A range whose last address is before its first one matches nothing; in a list which addr_parser::parse() merges (SORT_MERGE) it has no effect on what the list matches.", "quantifier": "for all texts with any number of empty and other ranges, all parser settings with SORT_MERGE, all system databases, all addresses", "why_tests_cant": "The effect of an empty range depends on the last range of the sorted list and on the order of the empty ranges; tests merge no list with one.", "anchors": ["libaddr/addr_parser.cpp:1132-1160 (parse)", "libaddr/addr_range.cpp (union_if_possible, is_empty)"]}
{"id": "C116", "title": "Merging never adds an address", "statement": "A list which addr_parser::parse() merges (SORT_MERGE) never matches an address which the same list, read without SORT_MERGE, does not match.", "quantifier": "for all texts, all parser settings with SORT_MERGE, all system databases, all addresses", "why_tests_cant": "It compares two sets of up to 2^128 addresses for every text; the only lists which break it write a mask after a range without a first address, which no test does.", "anchors": ["libaddr/addr_parser.cpp:1132-1160 (parse)", "libaddr/addr_parser.cpp:1266-1270 (parse_cidr)", "libaddr/addr_range.cpp (union_if_possible)"]}
{"id": "C117", "title": "The ranges and lists which the address validator accepts", "statement": "A validator for addresses whose options ask for numeric addresses without comments and defaults accepts exactly the values which its options describe: where no list is allowed, a value which is, apart from the white space around it, one address or, if ranges are allowed, one of 'a', 'a-', '-b' and 'a-b', followed by a port as far as the options allow or require one and, if masks are allowed, by a number of bits; where lists are allowed, a value every item of which is such a text, the items being the longest pieces without a separator. Whether a value is accepted does not depend on what was validated before. The address has to be required or present, or, without masks, the value to be free of hyphens.", "quantifier": "for all option lists and option splitters, values without NUL, conversions of ports and sequences of previous calls", "why_tests_cant": "Both directions quantify over all texts: tests can only show that some values are accepted and some refused, not that nothing else is accepted.", "anchors": ["libaddr/validator_address.cpp:165-547 (validator_address, validate)", "libaddr/addr_parser.cpp:1037-1170 (parse)", "libaddr/addr_parser.cpp:1593-1700 (parse_address_range_port)"]}
{"id": "C118", "title": "What the address validator accepts, string_to_addr() converts", "statement": "A value which is the text of an IPv4 or IPv6 address, with blanks around it and with or without a decimal port, is converted by string_to_addr() to exactly this address and port (the default port where none is written), whatever the other parameters as long as they are acceptable and the protocol is TCP, UDP or none; a decimal port alone, or nothing, is converted to the default address. In particular every value with an address and a decimal port which a validator for one numeric address accepted is converted, not refused, although string_to_addr() uses getaddrinfo() and the validator does not.", "quantifier": "for all texts, default addresses and ports, protocols, options of the validator and sequences of previous validations; for every getaddrinfo() which reads numeric addresses and decimal ports", "why_tests_cant": "It relates two functions which read the text in different ways (inet_pton() on one side, getaddrinfo() on the other) on all texts which one of them accepts.", "anchors": ["libaddr/addr_parser.cpp:2314-2390 (string_to_addr)", "libaddr/addr_parser.cpp:1593-1884 (parse_address_range_port, parse_address_port)", "libaddr/validator_address.cpp:520-547 (validate)"]}
{"id": "C119", "title": "The address validator accepts what the library prints", "statement": "The text printed for an address with a mask made of a number of bits, with or without its port and mask, for a range which has addresses, printed as addresses alone, or for a list of such ranges joined by commas, is valid for an address validator which allows what is printed, whatever it validated before. In the default mode, which prints the port and the mask, this should hold for ranges too.", "quantifier": "for all addresses, ports, masks, printing modes with numeric ports, ranges and lists of ranges, all options of the validator without lookups, comments and defaults, all previous values", "why_tests_cant": "A configuration written by one program and checked by another relies on it for every address; the tests validate a list of literal texts.", "anchors": ["libaddr/validator_address.cpp: validator_address::validate", "libaddr/addr.cpp: addr::to_ipv4or6_string", "libaddr/addr_range.cpp: addr_range::to_string"]}
{"id": "C120", "title": "An address keeps what was set until it is set again", "statement": "A new addr is `::` with port 0, a mask which masks nothing, the TCP protocol, none of them marked as defined, and no names. After any sequence of calls, failing ones included, the address, the port, the protocol, the mask, the three marks, the host name and the interface name each are what the last call meant to set them made them, or what they were at first when no such call was made.", "quantifier": "for all finite sequences of calls with arbitrary arguments and answers of the kernel", "why_tests_cant": "It is about every pair of functions and every sequence of calls: tests set one attribute and look at it.", "anchors": ["libaddr/addr.h: class addr", "libaddr/addr.cpp: addr::addr, addr::set_mask, addr::set_port, addr::set_hostname, addr::set_interface, addr::set_from_socket, addr::recvfrom"]}
{"id": "C121", "title": "A range is the two bounds which were set", "statement": "After any sequence of set_from(), set_to(), swap_from_to(), from_cidr() and changes through the references given by get_from() and get_to(), has_from(), has_to(), is_defined(), is_range() and the bounds are those which the calls are meant to give; a from_cidr() which throws changes nothing. get_from() and get_to() give a new address when the bound is missing, so ranges with the same bounds are identical however they were made.", "quantifier": "for all finite sequences of calls with arbitrary arguments", "why_tests_cant": "The addresses stored for missing bounds are used by other functions (union_if_possible() reads their masks); only an invariant over all histories says what they are.", "anchors": ["libaddr/addr_range.h: class addr_range", "libaddr/addr_range.cpp: addr_range::set_from, set_to, swap_from_to, from_cidr, get_from, get_to"]}
{"id": "C122", "title": "The addresses listed are those which are matched, networks included", "statement": "The addresses which to_addresses() lists for the ranges read by parse() are exactly those which address_match_ranges() accepts. This is so for ranges with two bounds whatever their masks are, and for a range with one bound exactly when its mask is full: of a network such as 10.0.0.0/30 one address is listed and size() is 1, though match() accepts four. Turning the networks into ranges with from_cidr() first lists the 2^(128-n) addresses which the network matches, once each, or throws when they are more than the limit.", "quantifier": "for all ranges, masks, networks a/n, lists of ranges and networks, and limits", "why_tests_cant": "It relates three functions over all masks (also those which are no prefix) and all lists; tests list a few ranges without masks.", "anchors": ["libaddr/addr_range.cpp: addr_range::to_addresses, addr_range::size, addr_range::match, addr_range::from_cidr, address_match_ranges"]}
{"id": "C123", "title": "The flags which are announced but not implemented have no effect on what is read", "statement": "set_allow() with ALLOW_ADDRESS, ALLOW_MULTI_PORTS_SEMICOLONS or ALLOW_PORT_RANGE, set or cleared, and clearing ALLOW_MULTI_PORTS_COMMAS, change nothing in what parse() does afterwards: same ranges, exception or undefined behaviour, same messages, same count of errors. Setting ALLOW_MULTI_PORTS_COMMAS is worth clearing ALLOW_MULTI_ADDRESSES_COMMAS and nothing else; without ALLOW_MULTI_ADDRESSES_COMMAS it has no effect.", "quantifier": "for all parsers, all sequences of such calls, all texts and all answers of the system and of the libraries", "why_tests_cant": "That a flag has no effect is a statement about all texts and all combinations of the other flags; a test shows one text which is read the same.", "anchors": ["libaddr/addr_parser.cpp: addr_parser::set_allow", "libaddr/addr_parser.cpp: addr_parser::parse", "libaddr/addr_parser.h: allow_t"]}
{"id": "C124", "title": "Allowing more does not refuse nor change what was accepted", "statement": "When parse() accepts a text (no exception, no new error), the parser on which ALLOW_PORT, ALLOW_ADDRESS_RANGE, ALLOW_MASK or ALLOW_ADDRESS_MASK was set or ALLOW_REQUIRED_ADDRESS was cleared besides accepts it too and returns the same ranges. (Texts without NUL; no default masks when ALLOW_MASK gets set.)", "quantifier": "for all parsers, all texts, all sequences of such calls and all answers of the system and of the libraries (a port has no slash)", "why_tests_cant": "It compares two parsers on every text; the flags change how a text is cut (at hyphens, slashes, colons), so each text is another path through the parser.", "anchors": ["libaddr/addr_parser.cpp: addr_parser::set_allow", "libaddr/addr_parser.cpp: addr_parser::parse", "libaddr/addr_parser.cpp: addr_parser::parse_cidr", "libaddr/addr_parser.cpp: addr_parser::parse_address", "libaddr/addr_parser.cpp: addr_parser::parse_address_range_port"]}
{"id": "C125", "title": "A Unix address is the scheme, the name, the mode and the group which were set last", "statement": "After any sequence of calls to the member functions of an addr_unix, exceptions being caught, get_scheme(), the name (is_file(), is_abstract(), is_unnamed(), to_string(), get_un()), get_mode() and get_group() are those set by the last call which was meant to change them and which was not refused. Which URIs set_uri() accepts and what they stand for is exact (the scheme of RFC 3986, the path up to the first question mark, the queries unnamed, file and abstract or none), so is it for the sockaddr_un of set_un() and for set_from_socket() (bytes after the length or after the first NUL do not count). A refused call changes nothing.", "quantifier": "for all reachable addr_unix objects, all sequences of calls and their arguments, all answers of getsockname() and every UTF-8 decoder which keeps ASCII", "why_tests_cant": "The object is a buffer of 108 bytes which is partly overwritten by each call; that no trace of an earlier name, and no part of a refused one, shows later is a statement about all histories.", "anchors": ["libaddr/addr_unix.cpp: addr_unix::set_uri", "libaddr/addr_unix.cpp: addr_unix::set_un", "libaddr/addr_unix.cpp: addr_unix::set_from_socket", "libaddr/addr_unix.cpp: addr_unix::set_file", "libaddr/addr_unix.cpp: addr_unix::set_abstract", "libaddr/addr_unix.cpp: addr_unix::set_scheme", "libaddr/addr_unix.cpp: addr_unix::make_unnamed", "libaddr/addr_unix.cpp: addr_unix::set_mode", "libaddr/addr_unix.cpp: addr_unix::set_group"]}
{"id": "C126", "title": "The text of an address, mode by mode", "statement": "For every mode, to_ipv4_string(), to_ipv6_string() and to_ipv4or6_string() return exactly the address, the port and the mask which the ten documented flags ask for, in that order, with the separators and brackets that belong there: the port by its name when it has one and it is asked for, the mask as a number of bits if it is a prefix and otherwise as an address, the default address as an asterisk or as 0.0.0.0 when asked for; the other 22 bits of the mode have no effect; when no text can be built the exception is the documented one. In a mode with the address, two addresses with the same text are the same or both are default addresses. In mode STRING_IP_NO_BRACKETS there are no brackets.", "quantifier": "for all addresses, masks, ports and protocols, all 2^32 modes and all contents of /etc/protocols and /etc/services", "why_tests_cant": "Ten flags interact (1024 combinations) over all addresses and masks; a test prints a few samples in a few modes.", "anchors": ["libaddr/addr.cpp: addr::to_ipv4_string", "libaddr/addr.cpp: addr::to_ipv6_string", "libaddr/addr.cpp: addr::to_ipv4or6_string", "libaddr/addr.h: string_ip_t"]}
{"id": "C127", "title": "Interfaces by name and by index agree", "statement": "get_interface_index_by_name() of a name listed by get_interface_name_index() is the index listed with it; it is the index of the interface with this name and 0 exactly when there is no such interface; and an interface found by its name is listed when all smaller indexes are interfaces too.", "quantifier": "for all sets of interfaces and all names", "why_tests_cant": "The interfaces are those of the machine: a test sees one set of interfaces.", "anchors": ["libaddr/iface.cpp: get_interface_index_by_name", "libaddr/iface.cpp: get_interface_name_index"]}
{"id": "C128", "title": "The error messages of the parser are true", "statement": "Every line which parse() adds to the error messages is one of a fixed set of messages, as many as the errors which it counts, and what it says is true: the address, port or mask it quotes is a piece of the text in the right place (or the default where the text leaves it out), and the reason holds (ports are not allowed and there is a colon; the text is not an address; the port is not a number below 65536; a bracket is not closed; the mask is not a number, or a number over the number of bits; the name service refused the name, or answered two different addresses for a bound of a range; ...). An address is said to use the IPv6 syntax only when it does.", "quantifier": "for all parsers, all texts and all answers of the name service", "why_tests_cant": "The tests compare the messages of a list of texts; that no text ever gets a message which is false of it is a statement about all texts and configurations.", "anchors": ["libaddr/addr_parser.cpp: addr_parser::emit_error", "libaddr/addr_parser.cpp: addr_parser::parse_address_port", "libaddr/addr_parser.cpp: addr_parser::parse_address6", "libaddr/addr_parser.cpp: addr_parser::parse_mask"]}
{"id": "C129", "title": "A range of host names is a range only if each name is one address", "statement": "With lookups and ranges allowed, an entry `u-`, `-w` or `u-w` (alone or in brackets, with or without a port) is read as follows. A bound is good when the usable answers about it all have the same address, as when the C library gives one address three times, once for each protocol. With good bounds parse() returns the one range from the address of u to the address of w, each with the protocol of its first answer, the name as its host name and the mask of one address; it is left out if it is empty and empty ranges are dropped. Otherwise there is no range: two different addresses make one error, so does a question without an answer or a mandatory port left out, and w is not looked up if u is not good. A numeric bound is the address it writes. A hyphen alone is refused.", "quantifier": "for all parsers of one entry with lookups and ranges and without masks, all names, ports and well-formed answers of the name service", "why_tests_cant": "The answers of the name service are not under the control of a test, and which of them count as the same address depends on the protocol and the order of all of them.", "anchors": ["libaddr/addr_parser.cpp: addr_parser::parse_address_range_port", "libaddr/addr_parser.cpp: addr_parser::parse_address_port_ignore_duplicates", "libaddr/addr_parser.cpp: addr_parser::parse_address_port"]}
{"id": "C130", "title": "An interface says whether it has a broadcast and a destination address", "statement": "has_broadcast_address() of an interface of get_local_addresses() is true exactly when the system gives a broadcast address with the entry, has_destination_address() exactly when it gives a destination address; when they are false, the address is the default one.", "quantifier": "every list of entries of getifaddrs()", "why_tests_cant": "A test machine has one set of interfaces; all flags, with and without the pointers.", "anchors": ["libaddr/iface.cpp: iface::has_broadcast_address", "libaddr/iface.cpp: iface::has_destination_address", "libaddr/iface.cpp: iface::get_local_addresses"]}
{"id": "C131", "title": "A mask after the name of a host", "statement": "With lookups and masks allowed, an entry name/n gives for each address of the host, in order, the network of its first n bits; when n is too large for one of the addresses, an answer cannot be used, the host is unknown or the mask is not a number, the entry is refused with all its addresses, with an error for each reason. An IPv4 address is let in only by a network around an IPv4 address of the host.", "quantifier": "every name service, parser with lookups and masks, host, port, mask and answers; every address matched", "why_tests_cant": "The answers are those of the name service of the machine the tests run on; here every list of answers of both families, and every number of bits.", "anchors": ["libaddr/addr_parser.cpp: addr_parser::parse_cidr", "libaddr/addr_parser.cpp: addr_parser::parse_mask", "libaddr/addr_range.cpp: address_match_ranges"]}
{"id": "C132", "title": "The lists of the system are freed once and not used after", "statement": "Each list which getaddrinfo() or getifaddrs() allocates is freed exactly once, when the function which asked for it returns or throws; no pointer into it is used after, the memory of others is not touched, and the result is the one of the content of the list.", "quantifier": "every allocator (addresses may be given again after a free), memory before the call, answer of the system, sequence of questions, with and without exceptions", "why_tests_cant": "A leak or a use after free does not change a result in a test, and the exceptions between the allocation and the end of the function need answers which the name service of the test machine does not give.", "anchors": ["libaddr/addr_parser.cpp: addrinfo_deleter", "libaddr/addr_parser.cpp: addr_parser::parse_address_port", "libaddr/addr_parser.cpp: addr_parser::parse_mask", "libaddr/iface.cpp: ifaddrs_deleter", "libaddr/iface.cpp: iface::get_local_addresses"]}
{"id": "C133", "title": "The values which an address validator with lookups accepts", "statement": "Where names may be looked up (the default), a value is valid exactly when each of its items is a name, an address or nothing (where the address may be left out), with a port where it is required, about which getaddrinfo() answers with complete IP addresses only; whatever was validated before. Numeric addresses with decimal ports are always valid.", "quantifier": "every list of options (without masks, ranges, comments and defaults), value, earlier values, name service", "why_tests_cant": "The name service is not under the control of a test, and the texts which are valid are an infinite set whose boundary (empty names, brackets, several colons) no list of samples shows.", "anchors": ["libaddr/validator_address.cpp: validator_address::validate", "libaddr/addr_parser.cpp: addr_parser::parse_address_port"]}
{"id": "C134", "title": "The order of the list which the parser returns is determined", "statement": "The list returned is the only one which is sorted (by family if asked for, then by SORT_FULL: first address, longest first, empty ranges last) and in which ranges on a level are in the order of the text; it does not depend on how the standard library sorts. With SORT_MERGE a family is put first after the merge, ranges of a family staying in the order of the merge.", "quantifier": "every text, environment, parser, sort order; every implementation of std::stable_sort()", "why_tests_cant": "A test runs one implementation of the sort on a few lists; whether equal elements keep their places, and whether another library gives the same list, does not show.", "anchors": ["libaddr/addr_parser.cpp: addr_parser::parse", "libaddr/addr_range.cpp: addr_range::operator <", "libaddr/addr_range.cpp: addr_range::compare"]}
{"id": "C135", "title": "The number of errors and of ranges is bounded by the text, the counter does not overflow", "statement": "Without lookups parse() adds at most one error per character of the text (one for an empty text), and errors and ranges together are no more than that. With lookups the bound is multiplied by the number of answers of the system to a question (twice less one where ranges are allowed). Over any sequence of calls error_count() is not negative and at most the sum of these bounds, so that the int does not overflow before.", "quantifier": "every text, parser, environment with a bound on its answers, sequence of calls", "why_tests_cant": "An overflow needs more errors than a test can provoke, and the number of errors per item depends on the answers of the name service.", "anchors": ["libaddr/addr_parser.cpp: addr_parser::emit_error", "libaddr/addr_parser.cpp: addr_parser::parse", "libaddr/addr_parser.cpp: addr_parser::error_count"]}
{"id": "C136", "title": "The columns of the route table are found by their names", "statement": "As documented, get_ipv4_routes() uses the titles of the first line: whatever the order of the columns, whatever other columns there are and whatever the blanks between the words, the routes are those which are read from the table as Linux prints it today. A last line without its new line is not read, whatever it holds. A line without a word in the column of the mask is a route to one host; a line without a word in one of the other columns, the name of the interface aside, makes the call throw.", "quantifier": "every text which is a table with the eleven columns, every order of its columns, every other column, all blanks, all routes of the kernel", "why_tests_cant": "Tests read the file of the running kernel, in which the columns have one order; the orders, other columns and widths of blanks are unbounded.", "anchors": ["libaddr/route.cpp: readwords", "libaddr/route.cpp: get_position", "libaddr/route.cpp: get_value", "libaddr/route.cpp: route::get_ipv4_routes"]}
{"id": "C137", "title": "The case of letters does not matter", "statement": "Two texts which differ in the case of letters only are parsed alike, whatever the flags, the defaults, the protocol and the order asked for: the call ends in the same way, returns the same ranges in the same order but for the names kept with the addresses, and counts as many errors. So the same addresses are found in the two lists, the validator accepts both or neither, and string_to_addr() gives the same address or throws for both. Without lookups this holds whatever the name service does; with lookups the name service has to be indifferent to case as well.", "quantifier": "every pair of texts, every parser, every environment which is indifferent to the case of letters", "why_tests_cant": "Tests compare a few spellings; a text with n letters has 2^n of them, at any place of the syntax (addresses, names, masks, comments).", "anchors": ["libaddr/addr_parser.cpp: addr_parser::parse", "libaddr/addr_parser.cpp: string_to_addr", "libaddr/validator_address.cpp: validator_address::validate", "libaddr/addr_range.cpp: address_match_ranges"]}
{"id": "C138", "title": "Threads can ask questions about the same address", "statement": "The const member functions get_network_type(), get_network_type_string(), is_valid(), is_lan(), is_wan() and the copy constructor can be called by any number of threads on the same addr (for example one of the interfaces of the vector which all the callers of get_local_addresses() share) while nobody changes it: there is no data race, and each returns what it returns without the other threads.", "quantifier": "every address whose kept type is fresh, every interleaving of the single accesses of any number of threads", "why_tests_cant": "The window between two writes is a few instructions long; tests would have to be lucky with the schedule, and a sanitizer only sees the schedules which happen.", "anchors": ["libaddr/addr.cpp: addr::get_network_type", "libaddr/addr.cpp: addr::is_wan", "libaddr/addr.cpp: addr::is_lan", "libaddr/addr.h: addr::f_private_network"]}
{"id": "C139", "title": "Threads can validate values with the same validator", "statement": "validator_address::validate() is a const member function: any number of threads can call it on the same validator at the same time, without a data race, and each gets the answer which it gets without the others.", "quantifier": "every validator, all values, every interleaving of any number of threads, emitted error by emitted error", "why_tests_cant": "It depends on the schedule: a test would have to stop a thread between the parsing and the test of the errors.", "anchors": ["libaddr/validator_address.cpp: validator_address::validate", "libaddr/validator_address.h: validator_address::f_parser", "libaddr/addr_parser.cpp: addr_parser::clear_errors"]}
{"id": "C140", "title": "How the entries of an access list are spelled, and in which order, does not matter", "statement": "Two texts which write the same networks and ranges (other spellings of IPv6 addresses, brackets, white space, zeros in front of the numbers of bits, an IPv4 network of k bits or its IPv4-mapped form with 96 + k bits, another order of the entries) are decided alike: either parse() throws the same exception for both, or address_match_ranges() gives the same answer for every address, with and without SORT_MERGE. Without SORT_MERGE entries may also be repeated.", "quantifier": "all texts of lists of networks and ranges, all spellings, all permutations, every sort order, all addresses, every state of the name services", "why_tests_cant": "There are unboundedly many spellings and orders; merging depends on the order in which the ranges are compared.", "anchors": ["libaddr/addr_parser.cpp: addr_parser::parse", "libaddr/addr_parser.cpp: address_match_ranges", "libaddr/addr_range.cpp: addr_range::compare"]}
{"id": "C141", "title": "Adding entries to an access list forbids no address", "statement": "A list of networks and ranges with further entries is read as well, and address_match_ranges() is true for all the addresses for which it was true with the shorter list (allowing more never forbids anything, denying more never lets anything through).", "quantifier": "all texts of lists of networks and ranges, all lists of entries which contain those of the first text, every sort order, all addresses", "why_tests_cant": "It compares the answers of all pairs of lists for all addresses.", "anchors": ["libaddr/addr_parser.cpp: addr_parser::parse", "libaddr/addr_parser.cpp: address_match_ranges", "libaddr/addr_range.cpp: addr_range::union_if_possible"]}
{"id": "C142", "title": "The interface of an IPv4 address is the one through which the kernel sends to it", "statement": "find_addr_interface(a, true) returns an interface with the name of the one of the route which the kernel takes for the IPv4 address a (the route with the most bits, then the smallest metric), and nothing when there is no route.", "quantifier": "every list of interfaces, every route table which has the routes of their networks, every IPv4 address", "why_tests_cant": "A machine has one set of interfaces and routes; virtual private networks and overlapping networks are other machines.", "anchors": ["libaddr/iface.cpp: find_addr_interface", "libaddr/route.cpp: find_default_route", "libaddr/route.cpp: route::get_ipv4_routes"]}
{"id": "C143", "title": "An address of the Internet is reachable from everywhere", "statement": "is_wan(false) is true of an address which is not multicast exactly when the registries of special-purpose addresses do not say that it is not globally reachable: a program which only connects to such addresses cannot be led to a private, local or reserved network.", "quantifier": "every address whose type was not cached for another address", "why_tests_cant": "2^128 addresses: a block which is missing is seen only by who thinks of it.", "anchors": ["libaddr/addr.cpp: addr::get_network_type", "libaddr/addr.cpp: addr::is_wan"]}
{"id": "C144", "title": "Allowing lookups does not change how numeric addresses are read", "statement": "Turning ALLOW_ADDRESS_LOOKUP on in a parser which already accepts a numeric entry leaves what is read from that entry unchanged: one range with the same address, port, mask, host name and port_defined flag, and no error.", "quantifier": "every parser without masks which reads one entry, every numeric IPv4 or IPv6 entry, bare, bracketed, with or without a port, and every default port", "why_tests_cant": "It compares two code paths (inet_pton() and getaddrinfo()) over all texts of addresses and all ports.", "anchors": ["libaddr/addr_parser.cpp: addr_parser::parse_addr", "libaddr/addr_parser.cpp: addr_parser::set_allow"]}
{"id": "C145", "title": "What is said of a network holds for its addresses", "statement": "When is_lan() or is_wan() is true of an addr which is a network (an address with a mask), it is true of every address which the network matches.", "quantifier": "every network of every size, every address it matches, and both values of the arguments include_all and include_default", "why_tests_cant": "It is about all the addresses of all networks, IPv4 and IPv6; a network has up to 2^128 addresses.", "anchors": ["libaddr/addr.cpp: addr::is_lan", "libaddr/addr.cpp: addr::is_wan", "libaddr/addr.cpp: addr::get_network_type", "libaddr/addr.cpp: addr::match"]}
{"id": "C146", "title": "The order of the options of the address validator", "statement": "Options of the address validator which are about different things (address, comment, default, mask, port) can be given in any order: the validator which is constructed, the number of messages which are logged, and the exception if there is one, are the same. Only the order of the options about the same thing counts.", "quantifier": "every two lists of options, of any length and with any values, known or not, which have the same options about each thing in the same order; every behaviour of the name service and of the conversions", "why_tests_cant": "It is about all permutations of all lists of options, with default values which go through the parser and the name service.", "anchors": ["libaddr/validator_address.cpp: validator_address::validator_address"]}
{"id": "C147", "title": "Lists of host names: what is looked up, and what is made of the answers", "statement": "With lookups and lists of addresses allowed (no masks, ranges, comments or sorting), each entry of the list is looked up on its own. The result has, in the order of the list, one range for each usable answer to the question of each entry, with the port of that entry. A name which is not known, an entry which asks nothing (or lacks a mandatory port) and an answer which cannot be used each cost one error, and take nothing away from the other entries. The answers to any other question do not matter.", "quantifier": "every list of any length, every parser with these flags (any default addresses, ports and protocol), every name service whose answers are well-formed", "why_tests_cant": "It is about lists of any length and all the answers of the name service, where an error in one entry could drop or mix up the addresses of another one.", "anchors": ["libaddr/addr_parser.cpp: addr_parser::parse", "libaddr/addr_parser.cpp: addr_parser::parse_address", "libaddr/addr_parser.cpp: addr_parser::parse_address_port"]}
{"id": "C148", "title": "Access lists of host names", "statement": "A list of host names, read with lookups (no masks, ranges or comments), matches with address_match_ranges() exactly the addresses which the name service gave for one of its entries, in any sort order and also when the parser merges. Entries which are not known match nothing. Two lists with the same entries, however often and in which order, match the same addresses.", "quantifier": "every list of any length, every address, every parser with these flags and any sort order, every name service whose answers are well-formed", "why_tests_cant": "Matching is an equivalence over all 2^128 addresses, all lists, and all the answers of the name service; merging joins answers of different entries.", "anchors": ["libaddr/addr_parser.cpp: addr_parser::parse", "libaddr/addr_range.cpp: address_match_ranges"]}
{"id": "C149", "title": "The values which an address validator with lookups and masks accepts", "statement": "An address validator whose options allow lookups and masks (numbers of bits; no ranges, comments or defaults) accepts exactly the values which name a host, with a port as far as the options allow or require one, about which the system answers with nothing but IP addresses, and which have no mask or one which fits every address of the host: at most 128, and at most 32 when one of the addresses is an IPv4 address and the host is not written as an IPv6 address. A validator of lists accepts the values of which every item is such. What was validated before does not matter.", "quantifier": "every list of options meeting the conditions, every value without a NUL character in which no address is left out, every list of earlier calls, every name service whose answers are well-formed", "why_tests_cant": "Validity is an equivalence over all values, all lists of options and all the answers of the name service.", "anchors": ["libaddr/validator_address.cpp: validator_address::validate", "libaddr/addr_parser.cpp: addr_parser::parse_cidr", "libaddr/addr_parser.cpp: addr_parser::parse_mask"]}
{"id": "C150", "title": "Access lists of the networks around hosts", "statement": "A list of host names with or without masks (numbers of bits), read with lookups and masks, matches with address_match_ranges() exactly the addresses which are in the network of one of its entries: an entry gives a network for each address of the host, or none when the host is unknown, an answer cannot be used or the mask does not fit one of the addresses. A name without a mask stands for the addresses alone. This holds in any sort order, also when the parser merges.", "quantifier": "every list in which no address is left out, every configuration with lookups and masks and without ranges, comments and default masks, every name service whose answers are well-formed, every address tested", "why_tests_cant": "It is an equivalence over all texts, all answers of the name service and all addresses; tests have no name service of their own.", "anchors": ["libaddr/addr_parser.cpp: addr_parser::parse", "libaddr/addr_parser.cpp: addr_parser::parse_cidr", "libaddr/addr_parser.cpp: addr_parser::parse_mask", "libaddr/addr_range.cpp: address_match_ranges"]}
{"id": "C151", "title": "What to_addresses() lists of a text", "statement": "Of the ranges which parse() reads from a list of addresses, networks and ranges, to_addresses(ranges, limit) lists the numbers which are written (a network stands for the number written), entry by entry and in increasing order within a range, or throws out_of_range when there are more than the limit. With another sort order it is the same numbers; with SORT_MERGE each number which is written, or between two bounds, is listed once. The addresses listed of a range followed by a port have that port.", "quantifier": "every text of such a list, every limit, every configuration which reads it, every environment", "why_tests_cant": "The texts, the limits and the numbers of addresses are unbounded; that the loop ends is a statement about all executions.", "anchors": ["libaddr/addr_parser.cpp: addr_parser::parse", "libaddr/addr_range.cpp: addr_range::to_addresses", "libaddr/addr_range.cpp: addr_range::size"]}
{"id": "C152", "title": "Files of host names with comments", "statement": "A list with comments is read as any list of its pieces (what is outside the comments) by a parser which does not allow comments, whatever else is allowed and in whatever order it is sorted: same result, same errors. Hence two files which differ only in their comments are read alike and a comment is never looked up; a file of host names, merged or not, matches exactly the addresses which the name service gives for its pieces (with one name per line, for its lines up to their comments); a file of hosts with masks, when it is not merged, matches exactly the addresses of the networks given; the errors are one for each name not known, each bad answer and each piece which asks nothing.", "quantifier": "every text, every configuration of a parser of lists, every name service with well formed answers, every address", "why_tests_cant": "The texts, the comments and the answers of the name service are unbounded.", "anchors": ["libaddr/addr_parser.cpp: addr_parser::parse", "libaddr/addr_parser.cpp: addr_parser::parse_cidr", "libaddr/addr_parser.cpp: addr_parser::parse_address_port", "libaddr/addr_range.cpp: address_match_ranges"]}
{"id": "C153", "title": "string_to_addr() converts the names of the hosts with one address", "statement": "With no protocol, TCP or UDP, string_to_addr() converts a text exactly when it names a host (or an address, or leaves it to the default) for which the name service knows exactly one address, and returns that address with the port of the answer, the protocol asked for (TCP when none was), the host name as written, whether a port was written, and no mask. A host with several addresses, say 127.0.0.1 and ::1, is refused with addr_invalid_argument, as is one which is not known. When masks are allowed the name may be followed by a number of bits which fits that address, and the address has that mask; any other mask is refused.", "quantifier": "every text, default address, default port, protocol, every name service which answers as the GNU C library does", "why_tests_cant": "The texts and the answers of the name service are unbounded; the tests run with the name service of one machine.", "anchors": ["libaddr/addr_parser.cpp: string_to_addr", "libaddr/addr_parser.cpp: addr_parser::parse_address_port", "libaddr/addr_parser.cpp: addr_parser::parse_mask"]}
{"id": "C154", "title": "What the library asks the name service for", "statement": "Parsing never asks the name service for anything but pieces of the text and the defaults. Where lookups are allowed, the names asked for are pieces of the text or the default addresses, with a port written after a colon, the default port or 0, for the protocol of the parser; where masks written as addresses are allowed, what follows a slash or a default mask, as a number only. In a list each question is about one item without its comment, so a name in a comment is never looked up. The address validator asks the same; string_to_addr() asks only for pieces of its text and its default address, never for a mask. Whatever the name service would answer to any other question changes neither the result nor the messages.", "quantifier": "every configuration of the parser, every text, every two name services which agree on those questions", "why_tests_cant": "Texts, configurations and answers of the name service are unbounded, and a test sees the effect of an unwanted question only when its answer happens to differ.", "anchors": ["libaddr/addr_parser.cpp: addr_parser::parse", "libaddr/addr_parser.cpp: addr_parser::parse_address_port", "libaddr/addr_parser.cpp: addr_parser::parse_mask", "libaddr/addr_parser.cpp: string_to_addr", "libaddr/validator_address.cpp: validator_address::validate"]}
{"id": "C155", "title": "Learning new names never changes what is read without an error", "statement": "When a text is parsed without an error, it is parsed to the same result by any name service which knows more names and gives the same answers for the names which were known; only the names which the text and the defaults can ask for matter, and in a list only those of its items, not those in comments. A value which the address validator accepts stays accepted. Where the results of the two differ, the name service which knows fewer names led to an error message: a result is never silently different.", "quantifier": "every configuration of the parser (flags, defaults, protocol, order), every text, every two name services of which the second knows what the first knows", "why_tests_cant": "It compares the runs with all pairs of name services; a test machine has one.", "anchors": ["libaddr/addr_parser.cpp: addr_parser::parse", "libaddr/addr_parser.cpp: addr_parser::parse_address_port", "libaddr/addr_parser.cpp: addr_parser::parse_mask", "libaddr/validator_address.cpp: validator_address::validate"]}
{"id": "C156", "title": "White space around an address does not matter", "statement": "White space (spaces, tabs, new lines, ...) before and after the text of an address changes neither what parse() returns nor its messages, whatever is allowed and whatever the defaults; the same holds for each item of a list, for a text with a comment after it, for the address validator and for string_to_addr().", "quantifier": "every configuration of the parser, every text, every amount of white space, every name service", "why_tests_cant": "The texts and the amount of white space are unbounded, and the combinations of options many.", "anchors": ["libaddr/addr_parser.cpp: addr_parser::parse", "libaddr/addr_parser.cpp: addr_parser::parse_cidr", "libaddr/addr_parser.cpp: string_to_addr", "libaddr/validator_address.cpp: validator_address::validate"]}
{"id": "C157", "title": "Lists of addresses can be put one after the other", "statement": "Whatever the parser allows (comments, masks, ports, ranges, lookups), parse() of any number of lists with a separator between each returns the ranges of the lists one after the other and logs the errors of the lists one after the other, as if parse() had been called on each of them with the same parser; where lines have comments the separator is the new line. When the result is sorted (but not merged) the list has the same ranges as the lists read apart, and matches an address exactly when one of them does. A line which is a comment, or nothing, can be added anywhere without effect.", "quantifier": "every configuration with lists, any number of lists of any length, every name service, every state of the parser", "why_tests_cant": "The number and the texts of the lists are unbounded, and what ends one entry and starts the next depends on every combination of separators and comments.", "anchors": ["libaddr/addr_parser.cpp: addr_parser::parse", "libaddr/addr_parser.cpp: addr_parser::sort_result"]}
{"id": "C158", "title": "string_to_addr() and the address validator agree", "statement": "A text which string_to_addr() converts is valid for an address validator with the same settings (defaults, protocol, masks), and a text which that validator refuses makes string_to_addr() throw addr_invalid_argument. When the validator accepts the text, string_to_addr() fails only because the text does not give exactly one address.", "quantifier": "every text, default address, port, protocol, mask option, name service and state of the validator", "why_tests_cant": "string_to_addr() looks at the number of ranges and the validator at the errors: that the two agree is about all the ways in which a text can be wrong and all the answers of the name service.", "anchors": ["libaddr/addr_parser.cpp: string_to_addr", "libaddr/validator_address.cpp: validator_address::validate"]}
{"id": "C159", "title": "The order of the answers of the name service does not matter", "statement": "When the name service gives the addresses of hosts in another order, or some of them more than once, a file of host names (with comments, sorted and merged or not) lets in the same addresses, and so does a file of networks around hosts; where networks are merged, as long as both lists can be. When the answers are only in another order, parse() returns the same addresses with their protocols and host names in another order and logs as many errors.", "quantifier": "every text, every configuration of the two kinds, every pair of name services whose answers have the same members", "why_tests_cant": "Name servers turn their lists from one question to the next: a test sees one order of one set of answers.", "anchors": ["libaddr/addr_parser.cpp: addr_parser::parse_address_port", "libaddr/addr_parser.cpp: addr_parser::parse", "libaddr/addr_range.cpp: address_match_ranges"]}
{"id": "C160", "title": "Two notations of a mask", "statement": "With ALLOW_ADDRESS_MASK, an entry followed by one mask and the same entry followed by another mask are read as the same address, in all its parts, exactly when the same bits count in the two masks: \"/20\", \"/020\" and \"/255.255.240.0\" give the same, and so do \"/64\" and \"/[ffff:ffff:ffff:ffff::]\" in any notation of this address. A default mask counts as if it were written after the entry.", "quantifier": "every entry (address, port and spaces around them), every two masks, every environment which reads the texts of addresses, every configuration which reads one entry with address masks and without lookups", "why_tests_cant": "The masks have unboundedly many notations and go with any entry: tests compare a few pairs.", "anchors": ["libaddr/addr_parser.cpp: addr_parser::parse_mask", "libaddr/addr_parser.cpp: addr_parser::parse_cidr"]}
{"id": "C161", "title": "string_to_addr() does not depend on the order of the answers", "statement": "string_to_addr() returns the same address, in all its parts, or throws the same exception, in whatever order getaddrinfo() gives the addresses of a host. So does a parser which looks names up, without address ranges and masks written as addresses, for any text, valid or not: the same ranges up to their order, the same number of errors, the same addresses matched. Sorting or merging the result does not change this.", "quantifier": "every text, every default address, port, protocol and mask flag, every configuration as above, every two name services whose answers are permutations of each other", "why_tests_cant": "The answers of a name service can come in any order, which a test does not control: the tests only see the order of the machine they run on.", "anchors": ["libaddr/addr_parser.cpp: string_to_addr", "libaddr/addr_parser.cpp: addr_parser::parse_address_port", "libaddr/addr_parser.cpp: addr_parser::parse_cidr"]}
{"id": "C162", "title": "Writing an entry of a list again has no effect", "statement": "Two lists with the same entries, whatever their order and however often each is written, are both accepted or both refused, report the same errors (each as often as the wrong entry is written), hold the same ranges and match the same addresses.", "quantifier": "every list parser, every name service, every two texts with the same set of entries", "why_tests_cant": "The repetitions to try are those of any entries in any list; lists put together from several files repeat their entries freely. That one kind of entry makes the merge fail only when it is repeated is not something which a test of that entry shows.", "anchors": ["libaddr/addr_parser.cpp: addr_parser::parse", "libaddr/addr_range.cpp: addr_range::union_if_possible", "libaddr/addr_range.cpp: address_match_ranges"]}
