# Formal model of libaddr — design

This directory holds a machine-checked model of `libaddr` (the source in `/repo/libaddr`), written in Lean 4, and
proofs of the properties listed in `properties.jsonl`. `MANIFEST.json` maps every property to its theorems.

## Trusted base

* The Lean 4 kernel. No `sorry`, no `native_decide`/`bv_decide`, no axiom of our own. Theorems depend at most on
  `propext`, `Classical.choice` and `Quot.sound`.
* The correspondence between the Lean definitions under `lean/Verif/Model/` and the C++ text. Each definition cites the
  file and the lines it models. The code was read as text, it was not built nor run.
* What is *assumed* about code outside of the repository (each is a parameter of the model, or a definition written from
  the documented behaviour of the library):
  * glibc `inet_ntop()` / `inet_pton()`: modelled concretely in `Model/InetText.lean` (from the glibc sources as known).
  * `getaddrinfo`, `getprotobyname_r`, `getprotobynumber_r`, `getservbyname_r`, `getservbyport_r`, `getnameinfo`,
    socket calls, `getifaddrs`, the clock, file contents: parameters (arbitrary functions/values), theorems quantify over them.
  * advgetopt `validator_integer::convert_string`: a parameter; where a theorem needs it, the needed fact is a hypothesis
    and an instance is given.
  * snapdev `trim_string`, `saturated_add`, `saturated_subtract`, `tokenize_string`, `join_strings`: modelled concretely
    from their documentation.
  * `std::stable_sort`: any comparator that is not a strict weak order on the elements is the outcome "undefined
    behaviour"; otherwise the result is the unique stable sorted permutation (an insertion sort).
* Platform: little-endian Linux with 32 bit `int`, 64 bit `size_t`, two's complement conversions.

## Shape of the model

* `Verif/Basic.lean` — outcome type `Res` (`ok` / `throw e` / `ub why`), C strings.
* `Verif/Spec.lean` — the independent specification vocabulary: the numeric value of sixteen bytes, intervals as sets of
  numbers, prefix masks as numbers, network blocks as numeric intervals. It does not mention the model.
* `Verif/Model/*.lean` — the functions of the code, one definition per C++ function, state passed explicitly. Undefined
  behaviour is the distinct outcome `ub`; loops that may not end carry fuel and "diverges" means no fuel suffices.
* `Verif/Lemmas/*.lean` — helper lemmas.
* `Verif/Props/*.lean` — the property theorems, each followed by an `example` which shows a non-trivial case meeting its
  hypotheses. A theorem named `..._partial` proves only part of its property; `..._fails`/`not_...` theorems refute a
  claim with a concrete witness where the code does not have the property.

## Properties and how each is treated

| id | modelled by | proof |
|----|-------------|-------|
| C01, C02 | `Model/Addr.lean` set/get ipv4/ipv6 | round trip, byte vectors |
| C03 | ip_to_uint128 / ip_from_uint128 | induction over bytes, `Nat` value |
| C04 | memcmp comparisons | lexicographic compare = numeric compare |
| C05, C06, C07 | operators, saturated arithmetic, `Int` offsets | arithmetic over values |
| C08, C09, C10, C11 | mask functions | per-byte table plus induction, bit-wise extensionality |
| C12, C13, C14 | get_network_type with its mutable cache | intervals versus bit tests; invariant over operation lists; refutation of the unrestricted claim |
| C15–C19 | setters, operation lists | decision logic and invariants; refutations for narrowing, set_protocol, set_from_socket |
| C20 | `Model/Socket.lean` | decision logic over recorded system calls |
| C21–C23, C57–C59 | `Model/InetText.lean`, `Model/AddrText.lean` (to_*_string) | printer/reader round trip, shapes of the text |
| C24–C35 | `Model/Range.lean` | set semantics of intervals, loops with invariants, refutations for size, to_addresses, optimize_vector |
| C36–C46, C56, C67, C68, C71 | `Model/Parser.lean`, `SpecStringToAddr.lean` | state machine invariants, noninterference, homomorphism, round trip |
| C47–C49, C60 | `Model/Unix.lean`, `SpecUnix.lean` | string canonicalisation, invariants, refutation for URIs |
| C50, C51, C63–C66 | `Model/Iface.lean`, `SpecIface.lean` | labelled transition system, invariant over all interleavings; decision logic |
| C52 | `Model/Ostream.lean`, `SpecOstream.lean` | heap ownership invariant over histories |
| C53, C54, C61, C62 | `Model/Route.lean`, `SpecRoute.lean` | decoding of the text which Linux prints, word splitting, refutations |
| C55, C69, C70 | `Model/Validator.lean`, `SpecValidator.lean` | refinement of the option language, noninterference |
| C72–C74 | `Model/Tools.lean`, `SpecTools.lean` | whole program output and exit status over the argument list |
| C77 | `Model/Validator.lean`, `SpecValidator.lean` | the defaults after each option, for all lists of options |
| C78 | `Model/Socket.lean`, `SpecKernel.lean` | invariant of the sockets over all histories; the reply goes to the sender |
| C79–C81 | `Model/Parser.lean`, `Model/InetText.lean`, `SpecAddress.lean`, `SpecEntry.lean` | the language accepted equals an independent grammar |
| C82 | `Model/Parser.lean`, `Model/Range.lean`, `SpecNetwork.lean` | end to end: texts of networks to the answers of `address_match_ranges()`; entry by entry, then concatenation and permutation |
| C83 | `Model/Parser.lean` | exact outcome of each setter, frame over histories, invariant |
| C84 | `Model/AddrName.lean`, specification `SpecService.lean` | refinement of a list of services, round trip |
| C85 | `Model/SockaddrOrder.lean`, specification `SpecSockaddr.lean` | `memcmp()` of the memory = lexicographic order of numbers |
| C86 | `Model/Parser.lean`, specification `SpecRangeText.lean`, `SpecAccess.lean` | language = grammar, match = interval, induction over the entries |
| C87 | `Model/AddrText.lean`, `Model/Parser.lean`, specification `SpecRangeText.lean` | round trip through the grammar of ranges, induction over the list; the default mode fails for IPv6, exactly for the ranges with a last address which are not of IPv4 addresses only |
| C88 | `Model/Parser.lean`, specification `SpecMask.lean` | language = grammar, match = network |
| C89 | `Model/Validator.lean`, `Model/Parser.lean` | validity = grammar chosen by the options |
| C90 | `Model/Parser.lean`, `Model/Validator.lean`, specification `SpecMask.lean` and `Props/MaskDefault.lean` | language = grammar, match = network; claim about the default refuted |
| C91 | `Model/Parser.lean`, `Model/Validator.lean`, specification `SpecList.lean`, `SpecEntry.lean`, `SpecMask.lean` | induction over the items; claim about blank items refuted |
| C92 | `Model/Parser.lean`, specification `Asks`, `serviceAsked`, `FromAnswer` in `Props/LookupLanguage.lean` | case analysis of the entry, induction over the answers; claim about names of services refuted |
| C93 | `Model/Parser.lean`, specification `HintObeyed`, `IsBound` in `Props/ParserProtocol.lean` | invariant of every function of the parser, of sorting and of merging; claim for `IPPROTO_IP` refuted |
| C94 | `Model/Parser.lean`, specification `WritesMask`, `maskInEffect` in `Props/AddressMask.lean` | case analysis of the mask and of the answer |
| C95 | `Model/Parser.lean`, specification `pieces`, `Item`, `Written` | the model of `parse()` cut into pieces, then C91 |
| C96 | `Model/Parser.lean`, specification `intervals`, `HeldBy`, `pieces` | a list of intervals apart from each other is determined by the numbers it holds, and is the shortest |
| C97 | `Model/Parser.lean`, specification `RangeMaskOf`, `InMasked`, `InWidened` | the language of ranges (C86) followed by the mask loop |
| C98 | `Model/Range.lean` (`optimizeVector`), specification `Largest`, `Inside` | an invariant of one call (no network made up, none lost) and induction over the calls |
| C99 | `Model/Range.lean` (`totalSize`, `concatAddresses`, `toAddressesAll`), specification `numbersOf`, `total` | induction over the list; the single ranges are C25 and C26 |
| C100 | `Model/Range.lean`, specification `Within`, `SameParent` | arithmetic of aligned blocks over C27–C30 |
| C101 | `Model/Parser.lean`, `Model/Range.lean` (text), specification `boundsOf`, `intervals` | C87 for each entry; ranges apart are not merged, so that sorting permutes them; C96 for the order |
| C102 | `Model/Parser.lean` (`mergeLoop`), `Model/Range.lean` (`unionIfPossible`), specification `SpecMerge.lean` (`LeftOf`, `Clash`) | induction over the merge loop: the range built so far stands for a run of the networks |
| C103 | `Model/Parser.lean` (`mergeLoop`), `Model/Range.lean` (`unionIfPossible`) | induction over the merge loop with the ranges gathered so far; the upper bound of what is read has a full mask |
| C104 | `Model/Parser.lean` (`mergeLoop`), `Model/Range.lean` (`unionIfPossible`, `matchAddr`) | induction over the merge loop: the range built so far matches what the ranges it stands for keep |
| C105 | `Model/AddrText.lean` (`toStrAll`), `Model/Parser.lean` / `SpecAccess.lean` | the text of each range is shown to be a text of the specification, which C86 reads |
| C106 | `Model/IfaceFine.lean` | transition system with one access per transition and the mutex, mutual exclusion as an invariant over all interleavings; negation with a concrete execution |
| C107 | `Model/IfaceFine.lean`, `Model/Iface.lean` | refinement (simulation of the coarse system by the fine one with commit points), invariants over all interleavings |
| C108 | `Model/OstreamIndex.lean` | transition system with one access per transition and the mutex, invariant over all interleavings |
| C109 | `Model/IfaceHeap.lean`, `Model/Iface.lean` | transition system with a heap of vectors, ownership invariant, refinement of the coarse cache |
| C110 | `Model/Parser.lean`, `SpecAccessMerge.lean` | the entries of the text read one by one, then C103 and C104 in numbers |
| C111 | `Model/IfaceFine.lean`, `SpecIfaceCalls.lean` | the call in which each thread is as an invariant, the coarse executions of C107 for what is in the cache |
| C112 | `Model/Range.lean`, networks as intervals | induction over both loops, the networks left as a sub-multiset of the given ones |
| C113 | `Model/Parser.lean`, `Model/Range.lean`, `Model/AddrText.lean`, `SpecNetwork.lean` | the networks of both texts as intervals, from C98, C102, C105, C112; induction over both loops for what is left |
| C114 | `Model/Parser.lean`, `Model/Range.lean`, `SpecRange.lean` | one log per entry, then a permutation of the flattened logs; C43, C103 and C104 are invariant under permutations; witness texts for the negation |
| C115 | `Model/Parser.lean`, `Model/Range.lean`, `SpecRange.lean` | the sorted list is the other ranges and then the empty ones in the order of the text; induction over the loop for each of the two parts; witness texts for the negation |
| C116 | `Model/Parser.lean`, `Model/Range.lean`, `SpecRange.lean` | as C104 and C115, with the mask of the bound which is not set followed through the unions; witness text for the negation |
| C117 | `Props/ValidatorRange.lean` | the parser of a validator has the options' flags (C69), the items are read alone (C91), each by C79, C81, C86, C88 or C97 |
| C118 | `Props/StringToAddrText.lean`, `SpecStringToAddr.lean` | the entry is cut as for C79 and C81, the address looked up as for C68; the values of the validator by C89 |
| C119 | `Props/ValidatorPrint.lean` | the printed texts by C44 and C87, read by C86, C97 and C44, cut by C91 |
| C120 | `Props/AddrKeeps.lean` | every call but those of the table leaves the attribute as it is, by cases on the call; induction on the history |
| C121 | `Props/RangeHistory.lean` | refinement of a pair of optional addresses, induction on the history |
| C122 | `Props/NetworkEnum.lean` | composition of C26, C99, C24, C11 and C27; the converse of C122_single flips a bit which the mask does not keep |
| C123 | Props/IgnoredFlags (`SameReading`) | relation between the runs with two configurations |
| C124 | Props/AllowMore, Props/AllowMoreLookups, Lemmas/ParserMore (`AcceptsAs`, `Loosens`) | induction over the calls, inclusion of the runs without an error |
| C125 | Props/UnixHistory (`UriMeans`, `PathMeans`, `UnixDoes`, `UnixDoesAll`) | refinement of the object by what is seen, induction over the calls |
| C126 | Props/AddrModes (`Asks`, `Address4`, `Address6`, `PortShown`, `Mask4`, `Mask6`) | decision logic part by part, cutting of the text |
| C127 | Model/IfaceIndex, Props/IfaceIndex (`Interfaces`, `Interfaces.Answers`) | exact characterisation of the list (C66) |
| C128 | SpecComplaint, Lemmas/ParserSays, Props/Complaints (`Complaint`) | invariant of every parsing function (a Hoare logic of the messages) |
| C129 | SpecBounds, Props/LookupRange (`OneHost`, `NotOneHost`, `Written`) | decision logic, exact on both sides |
| C130 | Props/IfaceHas (`Given`) | decision logic over the list of entries |
| C131 | Props/LookupMask (`answerBits`, `NetworkOf`) | induction over the answers |
| C132 | Model/Memory, Props/SystemLists (`NeverInUse`, `afterQuestions`) | refinement, induction over the nodes |
| C133 | Props/ValidatorLookup (`HostNames`, `Names`, `ValidName`) | language equivalence, from C92 and C91 |
| C134 | Props/SortOrder (`StableOrder`, `Precedes`) | induction over both lists |
| C135 | Lemmas/ParserCost, Props/ErrorCount (`errorsOf`) | amortised cost: a range pays for the error it may still cause |
| C136 | SpecRouteColumns (`LineText`, `TableText`, `IsCell`), Props/RouteColumns | the words of a text as a relation, the reading depends on the cells only |
| C137 | SpecCase (`SameLetters`, `CaseBlind`), Props/LetterCase | a relation between two runs of the parser, function by function (Lemmas/ParserCase) |
| C138 | Model/AddrShared, Props/AddrShared (`Right`, `Race`) | invariants of the executions, one access at a time |
| C139 | Model/ValidatorShared, Props/ValidatorShared (`Right`, `Turns`) | invariants of the executions, one call of the functions on the errors at a time |
| C140 | SpecAccessMerge (`ItemOf`, `InItem`), Props/Spelling (`SameAnswers`) | the answers as a function of the entries, invariant under permutations |
| C141 | SpecAccessMerge (`Alone`, `LeftOver`), Props/AddEntry (`Adds`, `MatchesMore`, `Loses`) | from the exact answers of C110 and C86 |
| C142 | SpecRouting (`RouteFor`, `RouteTaken`), Props/Routing (`RouteOf`, `Connected`, `PlainRoutes`) | against the choice of the kernel, from the text of /proc/net/route |
| C143 | SpecReachable (`NotReachable`), Props/Reachable (`Missed`) | blocks as intervals, comparing two whole tables of blocks |
| C144 | Props/LookupSame (`SameAddress`) | composition of C79 and C92 |
| C145 | Props/NetworkKind (`lanBlocks`, `notWanBlocks`, `inBlock`) | arithmetic of aligned blocks, finite tables |
| C146 | Props/ValidatorOrder (`optionKind`, `SameByKind`) | frame conditions of the options, C69 for the flags |
| C147 | Props/LookupList (`Question`, `Answered`) | C41 entry by entry, C92 for each entry |
| C148 | Props/LookupAccess (`GivenFor`) | C147, then C43 or C102 for the sort order, C35 |
| C149 | Props/ValidatorLookupMask (`ValidNetworkName`, `FitsMask`) | C131 for each item, C69 for the flags, C91_validator for lists |
| C150 | Props/LookupNetworks (`GivesNetwork`, `NetworkBits`) | C131 for each item, C41 for lists, C43 for sorting, C102 for merging |
| C151 | Props/ListedText (`numbersIn`, `namedBy`) | C110 for the text, C26/C99 for the listing, C43 for sorting and merging |
| C152 | Props/CommentNames (`NamesFile`, `NetworksFile`, `piecesText`) | refinement to the parser without comments (C95), then C147, C148 and C150 |
| C153 | Props/StringToHost (`HostHas`, `HostAddr`, `TcpOrUdp`) | C68 for the parser and the pick, C92 and C131 for what it reads, counting the TCP answers |
| C154 | SpecAsked (`MayAsk`, `AlikeOn`), Lemmas/ParserAsked, Props/Asked | the two runs are the same function by function, each question shown to be allowed |
| C155 | SpecAsked (`KnownBy`), Lemmas/ParserKnown, Props/KnownNames | as C154, with the runs which emit an error set aside: an unknown name always emits one |
| C156 | Props/Blanks (`SameButBlanks`) | parse_cidr() trims; the positions which parse() cuts at are those of the text before the comment |
| C157 | Props/Concat (`PutsTogether`) | the pieces of the text are those of its parts; entries are read one after the other |
| C158 | Props/ReadersAgree (`SureAnswers`) | an entry gives addresses or errors (C46); string_to_addr() is parse() with settings (C68) |
| C159 | Props/AnswerOrder (`SameMembers`, `Turned`) | C152 says which addresses match by membership in the answers |
| C160 | Props/MaskNotations.lean, SpecMask.lean | one range for the entry, in which only the mask changes |
| C161 | Props/AnswerOrderAny.lean, Props/AnswerOrderSorted.lean, SpecStringToAddr.lean, SpecParseSafe.lean | a relation between two runs (related results, as many errors) kept by each function of the parser |
| C162 | Props/EntryRepeat.lean, SpecRange.lean | one log per entry (as C114), membership instead of permutations; C104 and C96 depend on the set of ranges only; witness text for the negation |
| C75, C76 | `Model/Tools.lean`, `SpecTools.lean`, `SpecRoute.lean` | the words of the lines written, for all interfaces and route tables |

## What is modelled and what is not

Modelled, function by function (each definition cites the lines):

* `addr.cpp`, `addr.h`: all of class `addr`, its text functions, its system calls, the comparisons of `in6_addr` and `sockaddr_in6`,
  the stream manipulators and output operators;
* `addr_range.cpp`, `addr_range.h`: all of class `addr_range`, `address_match_ranges()`, `optimize_vector()`, the output operators;
* `addr_parser.cpp`, `addr_parser.h`: all of class `addr_parser`, `string_to_addr()`;
* `addr_unix.cpp`, `addr_unix.h`: all of class `addr_unix` and its comparisons;
* `iface.cpp`: the list of interfaces and its cache, `iface`, `find_addr_interface()`, `is_broadcast_address()`, the list of names by index;
* `route.cpp`: `get_ipv4_routes()`, `route`, `find_default_route()`, the text of the flags;
* `validator_address.cpp`: the constructor and `validate()`;
* `tools/validate_ip.cpp`, `tools/ifaces.cpp`, `tools/ipv4_routes.cpp`: the programs, without their help screens.

A getter which returns a member is the field of the structure of the model (`get_protocol()` is `Addr.protocol`, and so on).

The lists of `getaddrinfo()` and `getifaddrs()` are lists in most models; `Model/Memory.lean` has their nodes, pointers and deleters.
`freeaddrinfo()` and `freeifaddrs()` are taken to accept a null pointer, as those of glibc do.

Not modelled: `version.cpp`, the texts of exceptions, `validator_address::name()` and the registration of its factory, the
tables of options which `validate-ip` hands to advgetopt, the tests.

## Conformance of the model with the unit tests

`lean/Verif/Conformance/` runs the model on the literal inputs of `/repo/tests/catch_ipv4.cpp`, `catch_ipv6.cpp`,
`catch_range.cpp`, `catch_validator.cpp` and `catch_unix.cpp` and compares it with the values which these tests require,
error messages included. They are tests: they look for differences between the model and the code, and no claim of
`MANIFEST.json` uses them. `Conformance/Env.lean` says which answers of the C library they assume. `Conformance/Constants.lean` compares the
constants of the model with those of the headers (`system_constants`, `library_constants`).

## Objects which threads share

`addr::get_network_type()` and `validator_address::validate()` are `const` but write `mutable` members. They run at once in
`Model/Addr.lean` and `Model/Validator.lean`; `Model/AddrShared.lean` (C138) and `Model/ValidatorShared.lean` (C139) run them step by
step for any number of threads, with a sequentially consistent memory. In the latter a step is a call of `clear_errors()`,
`emit_error()`, `has_errors()` or `error_messages()`, and `parse()` is the list of errors it emits (`Parser.Logs`), which
`Parser.logging_parse` shows to depend on the configuration only.

## Simplifications in the parser model

* `f_error_count` is an unbounded integer (the code has a 32 bit `int`; C135 says how large it may become).
* The outside (`getaddrinfo`, `gai_strerror`, `strerror`, `validator_integer::convert_string`, `getprotobyname`) is a
  record of arbitrary functions (`ParseEnv`): it answers the same question the same way during one call to `parse()`.
  Between two calls it may change, theorems over sequences of calls carry one environment per call.
* `std::stable_sort()` is an insertion sort (any other stable sort gives the same list: C134), undefined (`Ub.badComparator`) when the comparator is not a strict weak order
  on the elements of the list.
* `isspace()` is the one of the "C" locale. Positions are natural numbers (a text is shorter than `2^64` characters).
* Vectors passed by reference are returned. A parser is the configuration, the error text and the number of errors.

## Simplifications in the validator model

* `advgetopt::split_string()` is an arbitrary function. Of the messages sent to the log only the number is kept.
* The registration of the factory and the reference counts of `advgetopt::validator` are not modelled.

## Simplifications in the Unix address model

* A byte of `sun_path` is a `Char`. `sockaddr_un` is two bytes of family followed by 108 bytes of path, as on Linux.
* `libutf8::to_u32string()` is an arbitrary partial function `UnixEnv.utf8`. The theorems suppose that it keeps the ASCII
  characters (`Spec.Utf8Ascii`), which every UTF-8 decoder does.
* `snapdev::tokenize_string()` and `join_strings()` are modelled from their documentation (`UnixAddr.tokens`).
* `getsockname()` fills any structure with any length (`SockName`). `unlink()` is the name handed to `unlink(2)`.
* `get_mode()` and `get_group()` are the fields of the object.

## Simplifications in the route model

* The content of `/proc/net/route` is an argument (`getIpv4Routes`). A file which cannot be opened, or of which a read fails,
  is a text which ends there: `get()` returns EOF (route.cpp:88-92), so that it reads as the empty text or as its first part.
* `Spec.routeTable` is the text which Linux prints (`fib_route_seq_show()`): words separated by tabulations, addresses as
  eight hexadecimal digits of the little-endian word, padding with spaces before the end of the line.
* `std::stol()` skips blanks, reads a sign and digits, throws `std::invalid_argument` without digits and
  `std::out_of_range` outside of 64 bits.

## Simplifications in the interface model

* The cache is a labelled transition system (`Cache.step`), one transition per critical section; `getifaddrs()` and the loop
  which builds the list are one transition in between, whose answer is arbitrary. `g_cache_ttl`, which
  `set_local_addresses_cache_ttl()` writes without the lock, is written atomically. `time()` is the time stamp of the
  transition. `time_t` is an unbounded integer.
* `Fine.step` (`Model/IfaceFine.lean`) is the same code with at most one access to a global variable per transition, and the
  mutex as a variable; C107 proves that it refines `Cache.step`. Memory is sequentially consistent, which C++ promises for
  programs without data races (see C106 for the one race); `time(nullptr) + g_cache_ttl` is computed from left to right; the
  counters of the shared pointers and what the callers do with the shared lists are not modelled.
* `Heap.step` (`Model/IfaceHeap.lean`) has the vectors in a heap and builds the new one entry by entry; critical sections are single
  transitions. A cell of the heap is never reused, and callers only read the vectors.
* The type of the lists is a parameter: the theorems say which list is returned, not what is in it.
* A `struct sockaddr` of `getifaddrs()` is the pair of the two ways to read its memory; `ifa_broadaddr` and `ifa_dstaddr`
  are the same pointer, as in the C library.
* `find_addr_interface()` gets the list and the content of `/proc/net/route` as arguments.

## Simplifications in the stream model

* The library's entry of `pword()` and the number of registrations of its callback are the whole state of a stream;
  `copyfmt()`, `swap()` and the destructor of the standard library are modelled from the standard. The allocator always
  succeeds and never gives the same pointer twice. `get_ostream_index()` has a model of its own (`Model/OstreamIndex.lean`, C108), and is a
  constant in the others.
* The state of a stream another one was move-constructed from is not specified by the standard; the move is not modelled.

## Specification of the sockets of the kernel

`SpecKernel.lean` (for C78) is written from the manual pages and the sources of Linux. A program has a list of sockets; a call
is accepted or refused by a free choice (`Choice`), but `bind()` is refused for a name of another family or size and for a
socket which is bound, and the name of a sender has the family of the socket. Options of sockets, `close()`, errors other than
"-1" and the lengths of datagrams are left out. C17 to C20 do not use it: there the answers of the kernel are arbitrary.

The route which the kernel takes (`SpecRouting.lean`, C142) is the one of the main table with the most bits, then the smallest metric:
rules for several tables, the type of service and the state of the links are left out.

## Simplifications in the model of the tools

* What a tool writes to `std::cout` and `std::cerr` is kept with the result (`Tools.Output`), so that it remains when an
  exception follows. Writing never fails. The help and version screens are left out.
* The command line of `validate-ip` is read by advgetopt: the values of its options are parameters. Those of `ifaces` and
  `ipv4-routes` are modelled.
* The text of `e.what()` is left out. The number of errors of `validate-ip` is an unbounded integer.
* `addr::get_name()` is an arbitrary function of the address (empty when `getnameinfo()` finds no name).

## Where the code and a property disagree

Each entry is a theorem `Cnn_..._fails` (the negation of the full statement, which is kept as a `def Cnn_..._claim`) with a
concrete witness, next to a theorem for the largest part found to hold.

* C13 — the cached network type is not reset by `++`, `+=`, `apply_mask()` and `ip_from_uint128()`: an object asked for its
  type before and after such a move gives the old answer.
* C16 — `set_port(char const *)` narrows a 64 bit number to `int` before the range check.
* C18 — `set_protocol()` does not set the "defined" flag when the protocol is the one already held.
* C19 — `set_from_socket()` leaves the object half updated when it throws.
* C05 — `INT_MIN` as an offset is undefined behaviour (negation of the smallest `int`).
* C24, C35 — a range without bounds matches `::`.
* C25 — `size()` is 0 for the range of all the addresses, undefined for ranges of `2^127` addresses, and huge for most
  empty ranges.
* C26 — `to_addresses()` never ends for a range which ends with the largest address; an empty range with `to + 1 == from`
  yields one address.
* C30 — `union_if_possible()` throws `out_of_range` when the smaller mask size is not accepted by a new bound.
* C32 — a range without bounds is unordered with respect to all others, which are ordered.
* C34 — `optimize_vector()` throws for `{::/80, ::/80}` and `{255.0.0.0/8, ::1:0:0:0/80}`, never merges two halves of a
  block and may leave a block within another one.
* C23 — `to_ipv6_string()` prints `::` for the IPv4 address 0.0.0.0 (`is_default()` holds for both).
* C57 — `get_protocol_name()` builds a `std::string` from `nullptr` when `getprotobynumber_r()` finds nothing (it then
  returns 0); reached by `STRING_IP_PORT_NAME`.
* C40 — a mapped address written as IPv6 (`[::ffff:10.0.0.1]`) takes masks up to 128, not 32: the syntax decides.
* C42 — an input which is only a comment yields the default address; a blank before the comment character is looked up as
  an address; with a separator other than the newline the parser skips past the end of the line and the entries after it.
* C56 — the default mask for IPv6 is only used between brackets and with a colon: `set_default_mask("[64]")` is ignored.
* C43 — `SORT_MERGE` throws `out_of_range` for `255.255.255.255,[::1:0:0:0]/64`, and it turns `10.0.0.0/8,10.0.0.1/8` (two
  blocks) into the range of the two addresses, which no longer matches 10.5.5.5.
* C44 — printed without brackets, the mask of an IPv6 address which is not a number of bits gives a text such as
  `::1/8080::`, which the parser refuses. `C44_exact`: in the modes without names everything else is read back, and these
  texts never are (`C44_refused`).
* C49 — the question mark is not escaped by `to_uri()`: the file `foo?abstract` becomes the abstract name `foo`. The exact
  condition for the round trip is proved: no question mark in the name and a scheme of RFC 3986 (`set_scheme()` accepts
  anything).
* C54 — a column missing from the first line has position -1 and `entries[-1]` is read.
* C61 — the flags are printed with `%04X` and read with `std::stol(..., 10)`: 0201 (a rejected route) becomes 201.
* C62 — `find_default_route()` ignores the mask: `0.0.0.0/1` is returned as the default route when it comes first.
* C50 — the TTL is counted from the end of the call which fetched the list; when the clock goes back an empty list may be
  served.
* C51 — a list fetched before a reset may be stored after it, and is then served for the whole TTL.
* C64 — `find_addr_interface()` dereferences the null pointer which `get_local_addresses()` returns when `getifaddrs()` fails.
* C65 — with overlapping networks only the first one which has the address is asked for its broadcast address.
* C66 — `get_interface_name_index()` stops at the first index which is not an interface.
* C67 — `set_protocol("icmp")` is accepted (the name is known to `getprotobyname()`), and every address read without lookup
  then throws `invalid_argument`. An empty list from `getaddrinfo()` for the text of a mask is dereferenced.
* C68 — `string_to_addr()` with a protocol other than TCP and UDP always throws: the three answers for each address are not
  filtered, so there is never a single one.
* C70 — `address=no` has no effect (`ALLOW_ADDRESS` is never tested) and `address=required` refuses the default address.
* C71 — with ports not allowed and lookups on, "localhost:80" is accepted with its port: `parse_address()` sends a text
  without a dot before its only colon to `parse_address6()`, which does not check. Without lookup, a default port makes the
  parser refuse every text ("Found a port ... when it is not allowed").
* C72 — `validate-ip --mask --canonicalize ::ffff:10.0.0.1/24` ends with an exception: the text parses without errors but an IPv4
  address with an IPv6 mask cannot be printed. Wrong options are noticed only when there is an argument.
* C73 — the canonical form has the mask whether or not `--mask` allows it, so that without the option it is refused.
* C74 — `validate-ip --mask` refuses every argument without a mask: the default masks are written as addresses and the tool does
  not set `ALLOW_ADDRESS_MASK`. (The IPv6 one, "FF:FF:FF:FF:FF:FF:FF:FF", would not even be all ones.)
* C75 — `ifaces --default` compares the *host name of the address* (`addr::get_name()`, a reverse lookup) with the name of the
  interface of the default route: normally it shows nothing; without a default route it shows every interface of which the
  address has no host name. Flags of six digits (a CAN interface) run into the address.
* C76 — `ipv4-routes` gives eight columns to the name of the interface: `enp0s31f6` runs into the destination.
* C77 — `default=10.0.0.1/8` of the validator: `get_mask_size()` is 104, which becomes the default mask of IPv6; IPv4 gets none.
  Also, the masks between brackets which the documentation asks for are refused, as the parser of the option does not allow
  masks written as addresses.
* C79, C80 — the addresses are given to `inet_pton()` with `c_str()`: what follows a null character is ignored, so that
  `"1.2.3.4\0.example.com"` is accepted as `1.2.3.4`, with all of the text as the host name, of which `is_hostname_an_ip()` says that it
  is an address.
* C81 — the documentation of `parse()` says that an empty string is skipped silently and the one of `set_default_address()` that "by
  default an address is mandatory unless a default address is defined". Without default the parser uses `0.0.0.0` (or `::` after `[]`), also
  for the empty string unless several addresses are allowed. Where ports are not allowed and only an IPv6 default is set, `":"` is
  accepted as this default.
* C82 — with `SORT_MERGE`, the list `10.0.0.0/8,10.0.0.1/8` does not match 10.5.5.5 (see C43): `C82_claim_fails`. Without
  merging, lists mean what they write (`C82_list_partial`).
* C83 — `set_default_port("4294967376")` sets the default port 80: the 64 bit number is passed as an `int` before it is checked.
  `set_protocol("icmp")` is accepted though the documentation says that only ip, tcp and udp are (a later `parse()` then throws, see C67).
* C84 — when the protocol is IP (0), `get_service()` of port 80 is "http" (`getnameinfo()` looks for TCP) but `set_port("http")` returns
  false and `get_port_name()` is empty (they look for a service of the protocol "ip"). The documentation of `set_port()` says that it
  throws when the name is not known; it returns false.
* C87 — `addr_range::to_string()` in its default mode prints a range of IPv6 addresses as "[::1]-[::5]:0/128" (addr_range.cpp); the parser refuses this text, "followed by unknown data", since it wants both bounds within the same brackets (`C87_claim_fails`). The mode STRING_IP_ADDRESS gives a text which is read back (`C87_roundtrip`). In the default mode the ranges with a first address only and those of IPv4 addresses only are read back, all others are refused with one error (`C87_default_exact`).
* C90 — the default address used depends on the mask: `/24` without an address is `0.0.0.0/24` although the only default address defined is `::1` (`parse_address`, the branch on `f_default_address4`/`f_default_address6` is only taken without a mask).
* C91 — what is blank between two commas is not skipped although "an empty string is just skipped silently": it is the default address, or an error where the address is required (`"10.1.2.3, "` is 10.1.2.3 and 0.0.0.0).
* C92 — "the port may be numeric or a name such as `http`" (addr_parser.cpp:1689) but the hints include `AI_NUMERICSERV`, so the name of a service is refused.
* C93 — "`IPPROTO_IP` -- only return IP address supporting the IP protocol" (addr_parser.cpp:595) but with lookups this protocol is passed to `getaddrinfo()` as "any protocol", so TCP and UDP addresses are returned as well.
* C95 — with one address per line, an indented comment (a line with white space before its comment character) is read as the
  default address (`0.0.0.0`) instead of being skipped.
* C97 — a mask after a range with two bounds, or with a last bound only, is accepted and ignored (the source has a TODO about it);
  `-10.0.0.9/100` is accepted, and `10.0.0.9-10.0.0.1/x` is accepted when empty ranges are dropped.
* C99 — the static `to_addresses()` adds the sizes up in a `size_t`, so that two ranges of `2^63` addresses pass any limit from `2^63` on (`C99_claim_fails`).
* C101 — a range of one address is printed as it was written, `10.0.0.1-10.0.0.1` or `10.0.0.1`, so that lists of the same addresses may have different texts.
* C102 — merging keeps the mask of a network only if no number next to it is written: `10.0.0.255,10.0.1.0/24` is merged to the range `10.0.0.255-10.0.1.0`, which does not match `10.0.1.5`.
* C103 — `10.0.0.1/255.0.255.0,10.0.0.2` is read without an error and cannot be merged, since a mask which is not a number of bits has the size -1.
* C104 — a network whose first address touches a range is merged into that range as one address, and the rest of the network is lost (`10.0.0.9-10.0.0.255,10.0.1.0/24` does not match 10.0.1.5).
* C105 — `::ffff:10.0.0.0/90` is accepted by the parser, and to_string() of the range throws `addr_unexpected_mask`; an empty range which is kept is printed as `<empty address range>`, which the parser refuses.
* C106 — `set_local_addresses_cache_ttl()` is documented as thread safe and writes `g_cache_ttl` without the mutex: a data race with `get_local_addresses()`.
* C114 — with SORT_MERGE, "10.0.0.5/24,10.0.0.20-10.0.0.4,10.0.0.200-10.0.0.100" does not match 10.0.0.9 while the same list with its last two entries exchanged does: the empty ranges come last in the order of the text, only neighbours are merged, and a network merged with an empty range is a range of one address.
* C115 — with SORT_MERGE, "10.0.0.5/24" matches 10.0.0.9 and "10.0.0.5/24,10.0.0.20-10.0.0.4" does not: union_if_possible() does not look at whether its ranges are empty.
* C116 — the mask of "-10.0.0.5/100" is stored in the first bound, which the range does not have; nothing uses it until `union_if_possible()` takes the smaller of the two masks: merged with "10.0.0.5" it becomes 10.0.0.5/4, which matches 2^28 addresses.
* C119 — the validator refuses the text which addr_range::to_string() prints by default for a range with an end and an IPv6 address, even when ranges, ports and masks are allowed (as the parser does, C87).
* C121 — the documentation says that get_from() returns a new address when has_from() is false; after `r.get_from().set_ipv4_loopback()` it returns 127.0.0.1 and has_from() is still false.
* C122 — a network read by parse() is a range with one bound and a mask: match() accepts the whole network, but size() is 1 and to_addresses() lists only the address itself. from_cidr(get_from()) has to be called first.
* C124 — with ALLOW_ADDRESS_LOOKUP, a host name with a hyphen ("web-1") is accepted; once ALLOW_ADDRESS_RANGE is set it is cut at the hyphen and refused (`C124_claim_fails`). Names with a hyphen cannot be used in a parser of ranges.
* C126 — `STRING_IP_NO_BRACKETS` prints an IPv6 address between brackets (addr.cpp:1389-1393: a port is enough), and `STRING_IP_BRACKET_MASK`, documented as brackets around the mask, adds brackets around the address.
* C127 — `get_interface_index_by_name()` hands `c_str()` to the system, so that a text with a null character is taken for the name before it.
* C128 — a host name which has an IPv6 address, with a mask of the IPv4 syntax, is refused with "The address uses the IPv6 syntax".
* C130 — has_broadcast_address() looks at the flag of the interface only, so it is true for the IPv6 entry of an Ethernet interface, which has no broadcast address.
* C131 — the number of bits after a name applies to each address of the host in its own family, so `localhost/8` with the addresses 127.0.0.1 and ::1 is also the network `::/8`, which has every IPv4 address in it (as `::ffff:a.b.c.d`).
* C138 — `addr::get_network_type()` is `const` but writes the `mutable` member `f_private_network` twice, first `NETWORK_TYPE_UNKNOWN`, then the type, without a lock. Two threads which ask about the same address for the first time have a data race, and the second one may get that a private address is public (`is_wan()` true, `is_lan()` false). A copy made between the two writes stays wrong. The vector of interfaces returned by `get_local_addresses()` is shared by the threads, so its addresses are concerned. Asking for the type once before the address is shared avoids it.
* C139 — `validator_address::validate()` is `const` but uses the `mutable` member `f_parser`: it clears its errors, parses and then tests the errors, without a lock. A thread which begins to validate a value clears the errors of the others, so that an invalid value is accepted; and a valid value is refused because of the errors of another thread.
* C141 — with `SORT_MERGE` a list which allows more may allow less: 10.0.1.5 matches "10.0.1.0/24" but not "10.0.1.0/24,10.0.0.9-10.0.0.255", since the range and the address 10.0.1.0 are joined and the mask is forgotten (same cause as C43). In a list of addresses to deny, an entry more lets addresses through.
* C142 — `find_addr_interface()` only looks at the networks of the interfaces and at the default route: an address which is reached through another route, such as those of a VPN, is said to be on the interface of the default route, and of two overlapping networks the first one listed wins, not the one with the most bits.
* C143 — `get_network_type()` takes for addresses of the Internet the blocks 0.0.0.0/8, 192.0.0.0/24, 192.0.2.0/24, 198.18.0.0/15, 198.51.100.0/24, 203.0.113.0/24, 240.0.0.0/4 (255.255.255.255 included), 64:ff9b:1::/48, 100::/64, 2001:2::/48, 5f00::/16 and fc00::/8, one half of the unique local addresses, though the IPv6 blocks for documentation are known.
* C144 — a numeric address is read as three ranges instead of one as soon as lookups are allowed (the default), unless the protocol is TCP or UDP.
* C145 — is_lan() and is_wan() ignore the mask, so that a network such as 10.0.0.0/4 is said to be local although most of its addresses are those of the Internet.
* C150 — SORT_MERGE loses the network around an address of a host when the address next to it is also in the list, as in C102; with names the list does not show that the addresses are next to each other.
* C151 — to_addresses() does not end for a text such as `ffff:…:ffff-ffff:…:ffff`, as C26 says of the range.
* C158 — string_to_addr() never looks at the errors of its parser: with an unusable answer next to a usable one it returns an address for a text which the validator refuses.
* C162 — with SORT_MERGE, `::ffff:10.0.0.0/90` is accepted when it is written once and makes parse() throw `out_of_range` when it is written twice (`C162_claim_fails`): the union copies the number of bits with set_mask_count(), which refuses less than 96 for an IPv4 address.

Notes on properties which hold, where the wording needs care:

* C45 — where a port is required the default port does not count: it has to be written.
* C46 — `SORT_NO_EMPTY` drops an entry without an error, and so do answers of the name service which are neither IPv4 nor
  IPv6; both are excluded by hypotheses (`GoodAnswers`).
* C47 — the root path is refused, therefore no accepted path ends with a slash.
* C78 — the sockets are used through the library only: a datagram socket of IPv6 bound to an IPv4 address by other means makes
  `recvfrom()` throw after the datagram was read (`C78_outside`).
