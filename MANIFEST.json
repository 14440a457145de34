{
 "claims": [
  {
   "property": "C01",
   "status": "proved",
   "theorems": [
    "Verif.C01_ipv4_constructor",
    "Verif.C01_ipv4_refused",
    "Verif.C01_ipv4_roundtrip"
   ],
   "note": ""
  },
  {
   "property": "C02",
   "status": "proved",
   "theorems": [
    "Verif.C02_get_ipv4_iff_mapped",
    "Verif.C02_ipv6_constructor",
    "Verif.C02_ipv6_refused",
    "Verif.C02_ipv6_roundtrip"
   ],
   "note": ""
  },
  {
   "property": "C03",
   "status": "proved",
   "theorems": [
    "Verif.C03_from_uint128_frame",
    "Verif.C03_to_uint128_value",
    "Verif.C03_uint128_bijection"
   ],
   "note": ""
  },
  {
   "property": "C04",
   "status": "proved",
   "theorems": [
    "Verif.C04_comparisons",
    "Verif.C04_only_ip",
    "Verif.C04_total_order"
   ],
   "note": ""
  },
  {
   "property": "C05",
   "status": "proved",
   "theorems": [
    "Verif.C05_add_sub",
    "Verif.C05_inc_dec",
    "Verif.C05_int_min_undefined"
   ],
   "note": "INT_MIN is proved to be the only undefined offset."
  },
  {
   "property": "C06",
   "status": "proved",
   "theorems": [
    "Verif.C06_add_then_diff",
    "Verif.C06_difference"
   ],
   "note": ""
  },
  {
   "property": "C07",
   "status": "proved",
   "theorems": [
    "Verif.C07_neighbours"
   ],
   "note": ""
  },
  {
   "property": "C08",
   "status": "proved",
   "theorems": [
    "Verif.C08_mask_count_refused",
    "Verif.C08_mask_count_roundtrip"
   ],
   "note": ""
  },
  {
   "property": "C09",
   "status": "proved",
   "theorems": [
    "Verif.C09_mask_size_iff",
    "Verif.C09_mask_size_other",
    "Verif.C09_prefixMask_bits"
   ],
   "note": ""
  },
  {
   "property": "C10",
   "status": "proved",
   "theorems": [
    "Verif.C10_apply_mask_bits",
    "Verif.C10_apply_mask_block",
    "Verif.C10_apply_mask_idempotent"
   ],
   "note": ""
  },
  {
   "property": "C11",
   "status": "proved",
   "theorems": [
    "Verif.C11_match_any",
    "Verif.C11_match_bits",
    "Verif.C11_match_block"
   ],
   "note": ""
  },
  {
   "property": "C12",
   "status": "proved",
   "theorems": [
    "Verif.C12_network_type",
    "Verif.C12_network_type_after_set",
    "Verif.C12_network_type_string",
    "Verif.C12_table_disjoint"
   ],
   "note": ""
  },
  {
   "property": "C13",
   "status": "partial",
   "theorems": [
    "Verif.C13_claim_fails",
    "Verif.C13_fresh_type_partial",
    "Verif.C13_kept_type"
   ],
   "note": "The claim is false of the code (C13_claim_fails): arithmetic, apply_mask() and ip_from_uint128() keep the cached type. Proved for the histories where the type is not asked before such a move; C13_kept_type is what happens in the others: the type stays the one of the address held when it was asked for."
  },
  {
   "property": "C14",
   "status": "proved",
   "theorems": [
    "Verif.C14_predicates"
   ],
   "note": "For every object whose cached type is up to date (see C13)."
  },
  {
   "property": "C15",
   "status": "proved",
   "theorems": [
    "Verif.C15_port_survives",
    "Verif.C15_set_port",
    "Verif.C15_set_port_refused"
   ],
   "note": ""
  },
  {
   "property": "C16",
   "status": "partial",
   "theorems": [
    "Verif.C16_claim_fails",
    "Verif.C16_set_port_service",
    "Verif.C16_set_port_string_exact",
    "Verif.C16_set_port_string_partial"
   ],
   "note": "The claim is false of the code (C16_claim_fails): 64 bit numbers are narrowed to int. Exact behaviour proved for all numbers; the claim proved for the numbers which fit an int."
  },
  {
   "property": "C17",
   "status": "proved",
   "theorems": [
    "Verif.C17_create_socket",
    "Verif.C17_history",
    "Verif.C17_structural_invariant"
   ],
   "note": ""
  },
  {
   "property": "C18",
   "status": "partial",
   "theorems": [
    "Verif.C18_by_name",
    "Verif.C18_claim_fails",
    "Verif.C18_set_protocol_partial"
   ],
   "note": "The claim is false of the code (C18_claim_fails) when the protocol is the one already set; the rest is proved."
  },
  {
   "property": "C19",
   "status": "partial",
   "theorems": [
    "Verif.C19_claim_fails",
    "Verif.C19_failure_unchanged_partial",
    "Verif.C19_set_from_socket_partial"
   ],
   "note": "The claim is false of set_from_socket() (C19_claim_fails); proved for all other mutators."
  },
  {
   "property": "C20",
   "status": "proved",
   "theorems": [
    "Verif.C20_socket_family",
    "Verif.C20_socket_flags"
   ],
   "note": ""
  },
  {
   "property": "C21",
   "status": "proved",
   "theorems": [
    "Verif.C21_buffer_large_enough",
    "Verif.C21_ipv4_text",
    "Verif.C21_ipv4_text_injective",
    "Verif.C21_other_refused"
   ],
   "note": ""
  },
  {
   "property": "C22",
   "status": "proved",
   "theorems": [
    "Verif.C22_buffer_large_enough",
    "Verif.C22_bytes_roundtrip",
    "Verif.C22_canonical_unique",
    "Verif.C22_ipv6_text",
    "Verif.C22_ipv6_text_injective"
   ],
   "note": "inet_ntop()/inet_pton() are modelled after glibc; the text is also characterised independently of inet_pton() (Spec.Text6)."
  },
  {
   "property": "C23",
   "status": "partial",
   "theorems": [
    "Verif.C23_claim_fails",
    "Verif.C23_injective",
    "Verif.C23_ipv4or6_text_partial",
    "Verif.C23_ipv6_text_partial"
   ],
   "note": "False of the code for to_ipv6_string() of the IPv4 address 0.0.0.0 (C23_claim_fails). Proved for to_ipv4or6_string() without restriction and for to_ipv6_string() with an exact characterisation."
  },
  {
   "property": "C24",
   "status": "partial",
   "theorems": [
    "Verif.C24_is_in",
    "Verif.C24_match_complete",
    "Verif.C24_match_empty",
    "Verif.C24_match_single",
    "Verif.C24_undefined_claim_fails",
    "Verif.C24_undefined_partial"
   ],
   "note": "The part about ranges without bounds is false of the code (C24_undefined_claim_fails): such a range matches ::. The rest is proved."
  },
  {
   "property": "C25",
   "status": "partial",
   "theorems": [
    "Verif.C25_claim_fails",
    "Verif.C25_size_incomplete",
    "Verif.C25_size_partial",
    "Verif.C25_size_undefined_iff"
   ],
   "note": "The claim is false of the code (C25_claim_fails): the full range has size 0. Exactly which ranges satisfy it is proved (C25_size_partial is an equivalence)."
  },
  {
   "property": "C26",
   "status": "partial",
   "theorems": [
    "Verif.C26_claim_fails",
    "Verif.C26_diverges",
    "Verif.C26_empty_yields_one",
    "Verif.C26_enumerates_partial",
    "Verif.C26_incomplete"
   ],
   "note": "The claim is false of the code (C26_claim_fails): a range which ends with the largest address is enumerated for ever (C26_diverges). Proved for the other non-empty ranges."
  },
  {
   "property": "C27",
   "status": "proved",
   "theorems": [
    "Verif.C27_cidr_roundtrip",
    "Verif.C27_from_cidr_throws_iff"
   ],
   "note": ""
  },
  {
   "property": "C28",
   "status": "proved",
   "theorems": [
    "Verif.C28_to_cidr_iff",
    "Verif.C28_to_cidr_result"
   ],
   "note": ""
  },
  {
   "property": "C29",
   "status": "proved",
   "theorems": [
    "Verif.C29_intersection",
    "Verif.C29_intersection_comm"
   ],
   "note": ""
  },
  {
   "property": "C30",
   "status": "partial",
   "theorems": [
    "Verif.C30_claim_fails",
    "Verif.C30_union_comm",
    "Verif.C30_union_partial",
    "Verif.C30_union_sound",
    "Verif.C30_union_throws"
   ],
   "note": "The claim is false of the code (C30_claim_fails): the copy of the mask size may throw. When it does is characterised (C30_union_throws), the rest is proved."
  },
  {
   "property": "C31",
   "status": "proved",
   "theorems": [
    "Verif.C31_compare_classifies",
    "Verif.C31_compare_degenerate",
    "Verif.C31_compare_families",
    "Verif.C31_compare_mirror"
   ],
   "note": ""
  },
  {
   "property": "C32",
   "status": "partial",
   "theorems": [
    "Verif.C32_claim_fails",
    "Verif.C32_less_iff",
    "Verif.C32_strict_weak_order_partial"
   ],
   "note": "The claim is false with ranges without bounds (C32_claim_fails); proved for all defined ranges."
  },
  {
   "property": "C33",
   "status": "proved",
   "theorems": [
    "Verif.C33_coverage",
    "Verif.C33_result"
   ],
   "note": ""
  },
  {
   "property": "C34",
   "status": "partial",
   "theorems": [
    "Verif.C34_claim_fails",
    "Verif.C34_halves_not_merged",
    "Verif.C34_neighbours_throw",
    "Verif.C34_nested_left",
    "Verif.C34_never_fails_partial",
    "Verif.C34_no_nested_partial"
   ],
   "note": "The claim is false of the code (C34_claim_fails, C34_halves_not_merged, C34_nested_left). Proved: one-family vectors never fail, and a call which returns false leaves no block within another. Exactly when a call fails is C112."
  },
  {
   "property": "C35",
   "status": "partial",
   "theorems": [
    "Verif.C35_any_range",
    "Verif.C35_claim_fails",
    "Verif.C35_intervals_partial",
    "Verif.C35_order_irrelevant"
   ],
   "note": "False with ranges without bounds (C35_claim_fails, same cause as C24); proved for complete ranges, and for all ranges as \"one of them matches\"."
  },
  {
   "property": "C36",
   "status": "proved",
   "theorems": [
    "Verif.C36_commas_exclusive",
    "Verif.C36_flag_value",
    "Verif.C36_get_allow",
    "Verif.C36_last_value_wins"
   ],
   "note": ""
  },
  {
   "property": "C37",
   "status": "proved",
   "theorems": [
    "Verif.C37_errors_coherent",
    "Verif.C37_step"
   ],
   "note": ""
  },
  {
   "property": "C38",
   "status": "proved",
   "theorems": [
    "Verif.C38_parse_deterministic",
    "Verif.C38_parse_twice"
   ],
   "note": ""
  },
  {
   "property": "C39",
   "status": "proved",
   "theorems": [
    "Verif.C39_no_name_service"
   ],
   "note": ""
  },
  {
   "property": "C40",
   "status": "proved",
   "theorems": [
    "Verif.C40_decimal_mask",
    "Verif.C40_mapped_address_is_ipv6"
   ],
   "note": "\"IPv4\" is decided by the syntax in which the address is written: a mapped address between brackets counts as IPv6 (C40_mapped_address_is_ipv6)."
  },
  {
   "property": "C41",
   "status": "proved",
   "theorems": [
    "Verif.C41_concatenation",
    "Verif.C41_entrywise"
   ],
   "note": ""
  },
  {
   "property": "C42",
   "status": "partial",
   "theorems": [
    "Verif.C42_claim_fails",
    "Verif.C42_comment_is_address_fails",
    "Verif.C42_comment_is_default_fails",
    "Verif.C42_first_of_line_partial",
    "Verif.C42_list_partial",
    "Verif.C42_single_blank_partial",
    "Verif.C42_single_partial",
    "Verif.C42_swallows_fails"
   ],
   "note": "False of the code (C42_claim_fails): an input with only a comment yields the default address, a blank before the comment is read as an address and the end of a line after a comment is swallowed together with the addresses which follow. Proved where these do not arise, and what is read instead in the other cases: C42_first_of_line_partial, C42_single_blank_partial."
  },
  {
   "property": "C43",
   "status": "partial",
   "theorems": [
    "Verif.C43_claim_fails",
    "Verif.C43_family_alone",
    "Verif.C43_flags",
    "Verif.C43_full_alone",
    "Verif.C43_merge_loses_addresses_fails",
    "Verif.C43_merge_partial",
    "Verif.C43_merge_succeeds_partial",
    "Verif.C43_merge_throws_fails",
    "Verif.C43_no_empty",
    "Verif.C43_reading_unchanged",
    "Verif.C43_sort_permutes"
   ],
   "note": "False of the code (C43_claim_fails): SORT_MERGE may throw out_of_range, and it forgets masks so that addresses within a block no longer match (C43_merge_loses_addresses_fails). Proved: sorting permutes, is ordered and stable, the comparators are strict weak orders, merging keeps the set of addresses between the bounds whenever it returns, and when masks are of 96 bits or more it always returns (C103 says exactly when it throws). C43_flags, C43_full_alone, C43_family_alone: which step runs for which bits of the sort order."
  },
  {
   "property": "C44",
   "status": "partial",
   "theorems": [
    "Verif.C44_all_mode",
    "Verif.C44_claim_fails",
    "Verif.C44_exact",
    "Verif.C44_print_parse_mask_address",
    "Verif.C44_print_parse_partial",
    "Verif.C44_refused"
   ],
   "note": "False of the code in modes without brackets when the mask of an IPv6 address is not a number of bits (C44_claim_fails). C44_exact: in every mode without names a printed text is read back if and only if it does not have the mask of an IPv6 address as an address without brackets; C44_refused: those are refused with one error and no result, whatever the parser allows."
  },
  {
   "property": "C45",
   "status": "proved",
   "theorems": [
    "Verif.C45_missing_address_reported",
    "Verif.C45_missing_port_reported",
    "Verif.C45_required_address",
    "Verif.C45_required_port",
    "Verif.C45_sources"
   ],
   "note": "The port is always one written in the input: the default port is refused too when the port is required. An address is \"written\" when inet_pton() reads it or, with lookups, when the name service answers it."
  },
  {
   "property": "C46",
   "status": "proved",
   "theorems": [
    "Verif.C46_all_fail",
    "Verif.C46_counts",
    "Verif.C46_entry",
    "Verif.C46_entry_one",
    "Verif.C46_mask_error"
   ],
   "note": "The conclusion about entries without mask supposes usable answers from the name service (an example shows why) and no SORT_NO_EMPTY, which drops an entry without an error."
  },
  {
   "property": "C47",
   "status": "proved",
   "theorems": [
    "Verif.C47_calls_are_safe",
    "Verif.C47_canonical",
    "Verif.C47_constructed",
    "Verif.C47_make_unnamed",
    "Verif.C47_set_abstract",
    "Verif.C47_set_file",
    "Verif.C47_unix_state"
   ],
   "note": "For any decoder which keeps the ASCII characters."
  },
  {
   "property": "C48",
   "status": "proved",
   "theorems": [
    "Verif.C48_unix_order",
    "Verif.C48_unix_total"
   ],
   "note": ""
  },
  {
   "property": "C49",
   "status": "partial",
   "theorems": [
    "Verif.C49_claim_fails",
    "Verif.C49_set_uri",
    "Verif.C49_uri_round_trip_partial",
    "Verif.C49_uri_text"
   ],
   "note": "False of the code (C49_claim_fails): a question mark in a name is not escaped. Proved exactly: the round trip holds if and only if the scheme is one of RFC 3986 and the name has no question mark."
  },
  {
   "property": "C50",
   "status": "partial",
   "theorems": [
    "Verif.C50_claim_fails",
    "Verif.C50_clock_needed",
    "Verif.C50_fetched_in_call",
    "Verif.C50_hit_partial",
    "Verif.C50_served"
   ],
   "note": "False of the code (C50_claim_fails): the TTL is counted from the end of the call which fetched the list. Proved over all interleavings, counted from the store: the list served is the last one stored, answered by the system, at most the TTL old, never the placeholder; C50_clock_needed shows that the clock must not go back."
  },
  {
   "property": "C51",
   "status": "partial",
   "theorems": [
    "Verif.C51_claim_fails",
    "Verif.C51_fetched_after",
    "Verif.C51_reset_partial"
   ],
   "note": "False of the code (C51_claim_fails): a list fetched before the reset can be stored after it. Proved exactly: the list served was fetched after the reset or was held by a thread at the reset."
  },
  {
   "property": "C52",
   "status": "proved",
   "theorems": [
    "Verif.C52_no_leak",
    "Verif.C52_ownership",
    "Verif.C52_print",
    "Verif.C52_print_list",
    "Verif.C52_print_range",
    "Verif.C52_print_ranges"
   ],
   "note": ""
  },
  {
   "property": "C53",
   "status": "proved",
   "theorems": [
    "Verif.C53_hex_address",
    "Verif.C53_hex_refused",
    "Verif.C53_table"
   ],
   "note": "Also proved for the whole table as Linux prints it."
  },
  {
   "property": "C54",
   "status": "partial",
   "theorems": [
    "Verif.C54_claim_fails",
    "Verif.C54_missing_column",
    "Verif.C54_missing_no_route",
    "Verif.C54_no_ub_partial"
   ],
   "note": "False of the code (C54_claim_fails): a header without one of the columns makes the code read entries[-1]. Proved for every file whose first line has the eleven columns, whatever the other lines. Without one of the columns no route is ever read (C54_missing_no_route)."
  },
  {
   "property": "C55",
   "status": "proved",
   "theorems": [
    "Verif.C55_answers",
    "Verif.C55_invalid_iff",
    "Verif.C55_throws_iff",
    "Verif.C55_valid_iff"
   ],
   "note": ""
  },
  {
   "property": "C56",
   "status": "partial",
   "theorems": [
    "Verif.C56_claim_fails",
    "Verif.C56_default_mask_partial",
    "Verif.C56_ignored",
    "Verif.C56_ipv6_exact",
    "Verif.C56_numeric_ipv6_ignored_fails"
   ],
   "note": "False of the code (C56_claim_fails): a numeric IPv6 default mask is ignored. C56_default_mask_partial proves it for the others; C56_ignored: a mask for IPv6 without a colon changes the reading of no text at all; C56_ipv6_exact: both in one statement."
  },
  {
   "property": "C57",
   "status": "partial",
   "theorems": [
    "Verif.C57_claim_fails",
    "Verif.C57_throws_iff",
    "Verif.C57_undefined_iff_partial"
   ],
   "note": "False of the code (C57_claim_fails): STRING_IP_PORT_NAME with a protocol which has no entry in /etc/protocols. Exactly when is proved."
  },
  {
   "property": "C58",
   "status": "proved",
   "theorems": [
    "Verif.C58_all_injective",
    "Verif.C58_all_text"
   ],
   "note": ""
  },
  {
   "property": "C59",
   "status": "proved",
   "theorems": [
    "Verif.C59_empty_text",
    "Verif.C59_range_text",
    "Verif.C59_range_text_injective",
    "Verif.C59_vector_text"
   ],
   "note": ""
  },
  {
   "property": "C60",
   "status": "proved",
   "theorems": [
    "Verif.C60_from_socket",
    "Verif.C60_from_socket_refuses",
    "Verif.C60_text_round_trip",
    "Verif.C60_un_round_trip"
   ],
   "note": ""
  },
  {
   "property": "C61",
   "status": "partial",
   "theorems": [
    "Verif.C61_claim_fails",
    "Verif.C61_flags_iff",
    "Verif.C61_flags_partial",
    "Verif.C61_flags_to_string",
    "Verif.C61_letters",
    "Verif.C61_table_lost"
   ],
   "note": "False of the code (C61_claim_fails): the flags are printed in hexadecimal and read in decimal. Proved exactly: the flags are right if and only if they are below ten (C61_flags_iff), and flags of A000 or more make the whole table unreadable (C61_table_lost); flags_to_string() proved for all flags."
  },
  {
   "property": "C62",
   "status": "partial",
   "theorems": [
    "Verif.C62_claim_fails",
    "Verif.C62_default_route_partial"
   ],
   "note": "False of the code (C62_claim_fails): the mask is ignored, 0.0.0.0/1 is taken for the default route. Proved exactly: the first route whose destination is 0.0.0.0."
  },
  {
   "property": "C63",
   "status": "proved",
   "theorems": [
    "Verif.C63_list",
    "Verif.C63_no_ub"
   ],
   "note": ""
  },
  {
   "property": "C64",
   "status": "partial",
   "theorems": [
    "Verif.C64_claim_fails",
    "Verif.C64_default_partial",
    "Verif.C64_first_partial",
    "Verif.C64_none"
   ],
   "note": "False of the code (C64_claim_fails): a failure of getifaddrs() gives a null pointer which is dereferenced. Everything else of the statement is proved for lists which exist, with the default route as find_default_route() has it (C62)."
  },
  {
   "property": "C65",
   "status": "partial",
   "theorems": [
    "Verif.C65_claim_fails",
    "Verif.C65_disjoint",
    "Verif.C65_first_partial",
    "Verif.C65_ipv6"
   ],
   "note": "False of the code (C65_claim_fails): only the first interface whose network has the address is looked at. Proved exactly, and proved in full for disjoint networks."
  },
  {
   "property": "C66",
   "status": "partial",
   "theorems": [
    "Verif.C66_claim_fails",
    "Verif.C66_name_index_partial",
    "Verif.C66_sorted"
   ],
   "note": "False of the code (C66_claim_fails): the list stops at the first gap. Proved exactly: the interfaces before the first gap, in order."
  },
  {
   "property": "C67",
   "status": "partial",
   "theorems": [
    "Verif.C67_answers_partial",
    "Verif.C67_claim_fails",
    "Verif.C67_empty_answer_fails",
    "Verif.C67_history_partial",
    "Verif.C67_merge_partial",
    "Verif.C67_no_ub",
    "Verif.C67_protocol_fails"
   ],
   "note": "False of the code (C67_claim_fails): set_protocol(\"icmp\") is accepted and every address read without lookup then throws invalid_argument (C67_protocol_fails); an empty answer of getaddrinfo() about a mask is dereferenced (C67_empty_answer_fails); SORT_MERGE may throw out_of_range (C43). Proved otherwise, over all texts and all earlier calls."
  },
  {
   "property": "C68",
   "status": "partial",
   "theorems": [
    "Verif.C68_claim_fails",
    "Verif.C68_default",
    "Verif.C68_other_protocols",
    "Verif.C68_outcome",
    "Verif.C68_own_parser",
    "Verif.C68_printed",
    "Verif.C68_printed_mask",
    "Verif.C68_protocol",
    "Verif.C68_source",
    "Verif.C68_tcp"
   ],
   "note": "False of the code for protocols other than TCP and UDP (C68_claim_fails, C68_other_protocols): the name is accepted and no text is ever converted. Proved otherwise: the outcome, the source of the address, the protocol, the default address, and the round trip of printed addresses with and without a mask."
  },
  {
   "property": "C69",
   "status": "proved",
   "theorems": [
    "Verif.C69_allowed_iff",
    "Verif.C69_created"
   ],
   "note": ""
  },
  {
   "property": "C70",
   "status": "partial",
   "theorems": [
    "Verif.C70_address_ignored_partial",
    "Verif.C70_no_claim_fails",
    "Verif.C70_required_claim_fails",
    "Verif.C70_required_partial"
   ],
   "note": "Both halves are false of the code (C70_no_claim_fails, C70_required_claim_fails). Proved: ALLOW_ADDRESS has no effect at all on the parser; a required address has to be written whatever the defaults."
  },
  {
   "property": "C71",
   "status": "partial",
   "theorems": [
    "Verif.C71_claim_fails",
    "Verif.C71_default_claim_fails",
    "Verif.C71_default_refuses",
    "Verif.C71_lookup_partial",
    "Verif.C71_no_colon",
    "Verif.C71_no_lookup"
   ],
   "note": "False of the code with lookups (C71_claim_fails): \"localhost:80\" is read as an IPv6 text of which the port is not checked. Also, without lookup a default port makes every text refused (C71_default_claim_fails, C71_default_refuses). Proved without lookup for all texts, and with lookups for all names with a dot."
  },
  {
   "property": "C72",
   "status": "partial",
   "theorems": [
    "Verif.C72_claim_fails",
    "Verif.C72_exit_status_partial",
    "Verif.C72_output"
   ],
   "note": "False of the code (C72_claim_fails): with --mask --canonicalize, \"::ffff:10.0.0.1/24\" parses without errors and its printing throws, so that the exit status is 1. Also, wrong options are noticed only when there is an argument. Proved: the exit status in all cases (C72_exit_status_partial) and both outputs (C72_output)."
  },
  {
   "property": "C73",
   "status": "partial",
   "theorems": [
    "Verif.C73_canonical_again_partial",
    "Verif.C73_claim_fails",
    "Verif.C73_other_protocols"
   ],
   "note": "False of the code without --mask (C73_claim_fails: the mask is always printed and then refused) and for protocols other than TCP and UDP (C73_other_protocols: each line becomes three). Proved with --mask and TCP or UDP for all command lines."
  },
  {
   "property": "C74",
   "status": "partial",
   "theorems": [
    "Verif.C74_claim_fails",
    "Verif.C74_mask_required",
    "Verif.C74_with_mask"
   ],
   "note": "False of the code (C74_claim_fails): the default masks of the tool are written as addresses, which the tool does not allow, so that every argument without a mask is refused (C74_mask_required). Proved: which numbers of bits are accepted (C74_with_mask)."
  },
  {
   "property": "C75",
   "status": "partial",
   "theorems": [
    "Verif.C75_claim_fails",
    "Verif.C75_default_exact",
    "Verif.C75_help",
    "Verif.C75_lines_exact",
    "Verif.C75_lines_partial",
    "Verif.C75_names",
    "Verif.C75_new_interfaces",
    "Verif.C75_no_interfaces",
    "Verif.C75_options",
    "Verif.C75_unknown_option"
   ],
   "note": "False of the code for --default (C75_claim_fails): the host name of the address is compared with the name of the interface, so that nothing is shown, or everything without a host name when there is no default route (C75_default_exact). Also, flags of six digits run into the address: C75_lines_exact gives the words of the lines for all flags and names and says that they are right exactly for flags below 100000 and names of less than 17 characters (C75_lines_partial: those). Proved for all lists of interfaces: the filters, the names, the options, the exit status."
  },
  {
   "property": "C76",
   "status": "partial",
   "theorems": [
    "Verif.C76_claim_fails",
    "Verif.C76_lines_exact",
    "Verif.C76_lines_partial",
    "Verif.C76_no_routes",
    "Verif.C76_other_option"
   ],
   "note": "False of the code (C76_claim_fails): names of eight characters or more, such as enp0s31f6, run into the destination. C76_lines_exact gives the words for all names and numbers and says exactly when they are the values; C76_lines_partial is the claim for those; the letters are proved for the flags up, gateway and host."
  },
  {
   "property": "C77",
   "status": "partial",
   "theorems": [
    "Verif.C77_claim_fails",
    "Verif.C77_defaults_exact",
    "Verif.C77_defaults_partial"
   ],
   "note": "False of the code for the masks of IPv4 addresses (C77_claim_fails): get_mask_size() counts 96 bits more, so that default=10.0.0.1/8 makes 104 the default mask of IPv6 and sets none for IPv4. Proved: what is stored for all lists of values (C77_defaults_exact), and the claim for IPv6 addresses and full masks."
  },
  {
   "property": "C78",
   "status": "proved",
   "theorems": [
    "Verif.C78_bind",
    "Verif.C78_no_datagram",
    "Verif.C78_outside",
    "Verif.C78_reply"
   ],
   "note": "Over the specification of the sockets of the kernel in SpecKernel.lean, for sockets which are used through the library only; C78_outside shows what happens on a socket bound to a mapped address by other means."
  },
  {
   "property": "C79",
   "status": "partial",
   "theorems": [
    "Verif.C79_accepted",
    "Verif.C79_claim_fails",
    "Verif.C79_language_partial",
    "Verif.C79_refused",
    "Verif.C79_unambiguous"
   ],
   "note": "False of the code for texts with a null character (C79_claim_fails): what follows it is not read. Proved for all other texts (C79_language_partial, C79_accepted, C79_refused, C79_unambiguous), over a grammar which does not use the model (SpecAddress.lean); texts which leave the address out are in C81."
  },
  {
   "property": "C80",
   "status": "partial",
   "theorems": [
    "Verif.C80_claim_fails",
    "Verif.C80_hostname_partial",
    "Verif.C80_parsed"
   ],
   "note": "False of the code for host names with a null character (C80_claim_fails). Proved for all others, and for all addresses which the parser returns without lookups."
  },
  {
   "property": "C81",
   "status": "partial",
   "theorems": [
    "Verif.C81_claim_fails",
    "Verif.C81_default",
    "Verif.C81_empty_blank",
    "Verif.C81_empty_claim_fails",
    "Verif.C81_empty_list",
    "Verif.C81_mandatory_claim_fails",
    "Verif.C81_refused"
   ],
   "note": "False of the code (C81_claim_fails): without a default address the parser uses 0.0.0.0 or ::, also for the empty text when it reads one address only. Proved exactly: which texts are read as which default (C81_default) and that the others are refused (C81_refused)."
  },
  {
   "property": "C82",
   "status": "partial",
   "theorems": [
    "Verif.C82_claim_fails",
    "Verif.C82_list_partial"
   ],
   "note": "False of the code when the list is merged (SORT_MERGE): C82_claim_fails. Proved for every other sort order (C102 says exactly what a merged list matches); the texts of networks are specified apart from the model (SpecNetwork.lean)."
  },
  {
   "property": "C83",
   "status": "partial",
   "theorems": [
    "Verif.C83_address",
    "Verif.C83_claim_fails",
    "Verif.C83_history",
    "Verif.C83_independent",
    "Verif.C83_mask",
    "Verif.C83_port",
    "Verif.C83_port_text_fails",
    "Verif.C83_port_text_partial",
    "Verif.C83_protocol",
    "Verif.C83_protocol_text_fails",
    "Verif.C83_sort"
   ],
   "note": "False of the code for ports as texts of more than 32 bits (\"4294967376\" is accepted as 80) and for protocols by name (any protocol the system knows is accepted): C83_claim_fails. Proved exactly for everything else."
  },
  {
   "property": "C84",
   "status": "partial",
   "theorems": [
    "Verif.C84_claim_fails",
    "Verif.C84_name",
    "Verif.C84_name_of_address",
    "Verif.C84_port_name",
    "Verif.C84_roundtrip_partial",
    "Verif.C84_service",
    "Verif.C84_set_port_name"
   ],
   "note": "False of the code for the protocol IP (C84_claim_fails): get_service() looks for a service of TCP and set_port() for one of IP, which has none. Proved for TCP and UDP (C84_roundtrip_partial); the rest is proved for all protocols, except C84_port_name which is about TCP and UDP."
  },
  {
   "property": "C85",
   "status": "proved",
   "theorems": [
    "Verif.C85_comparisons",
    "Verif.C85_same_port",
    "Verif.C85_total_order"
   ],
   "note": "The order is specified in SpecSockaddr.lean apart from the model."
  },
  {
   "property": "C86",
   "status": "proved",
   "theorems": [
    "Verif.C86_accepted",
    "Verif.C86_language",
    "Verif.C86_list",
    "Verif.C86_matches",
    "Verif.C86_refused",
    "Verif.C86_unambiguous"
   ],
   "note": "The grammar of ranges is in SpecRangeText.lean (entries in SpecEntry.lean, lists in SpecAccess.lean). An entry which leaves its address out is C81."
  },
  {
   "property": "C87",
   "status": "partial",
   "theorems": [
    "Verif.C87_claim_fails",
    "Verif.C87_default_exact",
    "Verif.C87_default_first",
    "Verif.C87_default_four",
    "Verif.C87_default_mode_partial",
    "Verif.C87_default_refused",
    "Verif.C87_list",
    "Verif.C87_roundtrip",
    "Verif.C87_text"
   ],
   "note": "Proved for the mode STRING_IP_ADDRESS (C87_text, C87_roundtrip, C87_list). In the default mode C87_default_exact says exactly which ranges are read back: those with a first address only and those of IPv4 addresses only. The others are false (C87_claim_fails) and refused with one error (C87_default_refused): the default mode prints IPv6 bounds as \"[::1]-[::5]:0/128\", which the parser refuses since it wants \"[::1-::5]\"."
  },
  {
   "property": "C88",
   "status": "proved",
   "theorems": [
    "Verif.C88_accepted",
    "Verif.C88_language",
    "Verif.C88_matches",
    "Verif.C88_refused"
   ],
   "note": "The grammar is in SpecMask.lean (entries in SpecEntry.lean, addresses in SpecAddress.lean). Entries which leave their address out are C81, default masks C56, address-like masks C44 and C68."
  },
  {
   "property": "C89",
   "status": "proved",
   "theorems": [
    "Verif.C89_mask_iff",
    "Verif.C89_valid_iff"
   ],
   "note": "From the texts of the options (SpecValidator.lean) to the grammar of the values (SpecEntry.lean, SpecAddress.lean, SpecMask.lean). In C89_mask_iff the address is required or not left out."
  },
  {
   "property": "C90",
   "status": "partial",
   "theorems": [
    "Verif.C90_accepted",
    "Verif.C90_claim_fails",
    "Verif.C90_language",
    "Verif.C90_matches",
    "Verif.C90_refused",
    "Verif.C90_small_mask_partial",
    "Verif.C90_validator"
   ],
   "note": "The last part is false: with a mask of at most 32 bits and without brackets the default of IPv4, or 0.0.0.0, is used although only an IPv6 default is defined (C90_claim_fails), and with a larger mask the default of IPv6, or ::. Proved: exactly which default is used and what is read (C90_accepted, C90_small_mask_partial), that anything else is refused (C90_refused), with C88 the whole language (C90_language), the network matched (C90_matches) and the values which the validator accepts (C90_validator; with C89 this covers all values with numeric masks)."
  },
  {
   "property": "C91",
   "status": "partial",
   "theorems": [
    "Verif.C91_blank_partial",
    "Verif.C91_claim_fails",
    "Verif.C91_list",
    "Verif.C91_matches",
    "Verif.C91_no_error_iff",
    "Verif.C91_total",
    "Verif.C91_validator"
   ],
   "note": "Blank items are not skipped: with commas \"10.1.2.3, \" is two addresses, the second is 0.0.0.0 (C91_claim_fails; C91_blank_partial without blank items). Everything else is proved: C91_total and C91_list (the results and the number of errors), C91_no_error_iff, C91_matches, C91_validator."
  },
  {
   "property": "C92",
   "status": "partial",
   "theorems": [
    "Verif.C92_claim_fails",
    "Verif.C92_found",
    "Verif.C92_numeric",
    "Verif.C92_refused",
    "Verif.C92_service_names",
    "Verif.C92_unknown"
   ],
   "note": "The port cannot be the name of a service although documented (addr_parser.cpp:1689): the parser always asks with AI_NUMERICSERV (C92_claim_fails, C92_service_names). Everything else is proved: C92_found (the exact list and the number of errors), C92_unknown, C92_refused (the texts which ask nothing), C92_numeric."
  },
  {
   "property": "C93",
   "status": "partial",
   "theorems": [
    "Verif.C93_asked",
    "Verif.C93_claim_fails",
    "Verif.C93_known",
    "Verif.C93_numeric",
    "Verif.C93_unfiltered"
   ],
   "note": "set_protocol(IPPROTO_IP) is documented to return only addresses of the IP protocol, but with lookups the hint is 0, which asks for all the protocols (C93_claim_fails, C93_unfiltered gives exactly what is returned). Proved: C93_known, C93_numeric (without lookups), C93_asked (TCP and UDP, with and without lookups)."
  },
  {
   "property": "C94",
   "status": "proved",
   "theorems": [
    "Verif.C94_accepted",
    "Verif.C94_bracketed",
    "Verif.C94_dotted",
    "Verif.C94_language",
    "Verif.C94_matches",
    "Verif.C94_refused"
   ],
   "note": "C94_accepted, C94_refused and C94_language are the exact language, with the answers of getaddrinfo() (AI_NUMERICHOST) as a parameter; C94_dotted and C94_bracketed for a resolver which reads the texts of addresses; C94_matches for the addresses matched. \"[]\" is accepted as no mask, and the default mask of IPv6 only counts when it has a colon, as in the code."
  },
  {
   "property": "C95",
   "status": "partial",
   "theorems": [
    "Verif.C95_blank_partial",
    "Verif.C95_claim_fails",
    "Verif.C95_lines",
    "Verif.C95_list",
    "Verif.C95_matches",
    "Verif.C95_no_error_iff"
   ],
   "note": "False of the code in one point (C95_claim_fails): a line with white space before its comment is read as the default address. C95_list, C95_no_error_iff and C95_matches are exact for every configuration, with the pieces which are read made explicit (with new lines, comments and another separator only the first piece of each line); C95_lines says what they are in a file with one address per line; C95_blank_partial is the claim where no line is blank."
  },
  {
   "property": "C96",
   "status": "proved",
   "theorems": [
    "Verif.C96_canonical",
    "Verif.C96_entries",
    "Verif.C96_fewest",
    "Verif.C96_matches"
   ],
   "note": "C96_canonical, C96_fewest and C96_entries are about the bounds of the ranges returned, empty ranges left out, when the calls return (with masks SORT_MERGE may throw, see C43); C96_matches: without masks they always return and the addresses matched are those between the bounds."
  },
  {
   "property": "C97",
   "status": "partial",
   "theorems": [
    "Verif.C97_accepted",
    "Verif.C97_claim_fails",
    "Verif.C97_language",
    "Verif.C97_matches",
    "Verif.C97_refused",
    "Verif.C97_sample",
    "Verif.C97_start_partial"
   ],
   "note": "False of the code (C97_claim_fails): \"10.0.0.1-10.0.0.9/24\" is accepted and matches nine addresses, since the mask becomes that of the first bound and match() does not look at it. C97_accepted, C97_matches, C97_refused and C97_language are the exact behaviour: the mask counts only for a range with a first bound and no last one (C97_start_partial is the claim for those), its limit is 128 when there is no first bound, and an empty range which is dropped is accepted with any mask."
  },
  {
   "property": "C98",
   "status": "proved",
   "theorems": [
    "Verif.C98_canonical",
    "Verif.C98_ends",
    "Verif.C98_largest",
    "Verif.C98_matches",
    "Verif.C98_one_call",
    "Verif.C98_sample"
   ],
   "note": "C98_one_call holds for all vectors, C98_largest, C98_matches and C98_canonical for every loop which ends with false, C98_ends for the vectors of one family (others may throw: C34). One call is not enough (C34_nested_left)."
  },
  {
   "property": "C99",
   "status": "partial",
   "theorems": [
    "Verif.C99_claim_fails",
    "Verif.C99_list_partial",
    "Verif.C99_matches",
    "Verif.C99_merged",
    "Verif.C99_sample"
   ],
   "note": "C99_claim is false: the sizes are added up modulo 2^64 (C99_claim_fails). C99_list_partial holds whenever the number of ranges times the limit is below 2^64; C99_matches and C99_merged build on it."
  },
  {
   "property": "C100",
   "status": "proved",
   "theorems": [
    "Verif.C100_intersection",
    "Verif.C100_sample",
    "Verif.C100_union",
    "Verif.C100_union_answers"
   ],
   "note": "From C27 to C30 with the arithmetic of aligned blocks; when the union throws is C30_union_throws."
  },
  {
   "property": "C101",
   "status": "partial",
   "theorems": [
    "Verif.C101_canonical_partial",
    "Verif.C101_claim_fails",
    "Verif.C101_no_empty",
    "Verif.C101_normal_form",
    "Verif.C101_reread"
   ],
   "note": "The last sentence is false (C101_claim_fails): \"10.0.0.1-10.0.0.1\" and \"10.0.0.1\" write the same address and each is printed as it was written. C101_canonical_partial proves it for lists in which no address stands alone. The rest is proved: C101_reread (for lists read by any parser which merges), C101_no_empty, C101_normal_form."
  },
  {
   "property": "C102",
   "status": "proved",
   "theorems": [
    "Verif.C102_aligned",
    "Verif.C102_apart",
    "Verif.C102_exact",
    "Verif.C102_hosts",
    "Verif.C102_loses_network"
   ],
   "note": "Completes C82 for parsers which merge. C102_exact is the whole statement; C102_apart, C102_aligned and C102_hosts are the cases in which merging changes nothing; C102_loses_network is the case of an address and the network after it."
  },
  {
   "property": "C103",
   "status": "proved",
   "theorems": [
    "Verif.C103_address_mask",
    "Verif.C103_apart",
    "Verif.C103_refused",
    "Verif.C103_throws_iff"
   ],
   "note": "C103_throws_iff is the statement, C103_apart its last sentence, C103_refused and C103_address_mask the masks written as addresses. Ranges which are empty are left out: they are sorted last and compared by their bounds as any other range."
  },
  {
   "property": "C104",
   "status": "proved",
   "theorems": [
    "Verif.C104_exact",
    "Verif.C104_loses_network",
    "Verif.C104_network_beside_range",
    "Verif.C104_never_more",
    "Verif.C104_unchanged"
   ],
   "note": "C104_exact is the first sentence, C104_never_more and C104_unchanged the second. Ranges written without a first address (`-10.0.0.5`) are covered when no mask follows: with a mask, the code puts it on the bound which is not set and uses it when they are merged. C104_loses_network is a network which is lost since a range touches it."
  },
  {
   "property": "C105",
   "status": "partial",
   "theorems": [
    "Verif.C105_claim_fails",
    "Verif.C105_empty_range",
    "Verif.C105_partial",
    "Verif.C105_reread",
    "Verif.C105_saved",
    "Verif.C105_text",
    "Verif.C105_throws"
   ],
   "note": "False of the code (C105_claim_fails): \"::ffff:10.0.0.0/90\" is read without an error, and printing it throws addr_unexpected_mask. C105_reread is the exact behaviour of parsers with SORT_NO_EMPTY: printing throws exactly when such an entry (an IPv4 address, less than 96 bits) is written, and otherwise the claim holds (C105_partial). C105_empty_range: without SORT_NO_EMPTY an empty range is printed as \"<empty address range>\", which is refused. C105_text, C105_throws and C105_saved are about ranges made in any other way."
  },
  {
   "property": "C106",
   "status": "partial",
   "theorems": [
    "Verif.C106_claim_fails",
    "Verif.C106_partial",
    "Verif.C106_reads",
    "Verif.C106_without_ttl",
    "Verif.C106_writes"
   ],
   "note": "False of the code (C106_claim_fails): set_local_addresses_cache_ttl() writes g_cache_ttl without the mutex under which get_local_addresses() reads it. C106_partial: this variable is the only one with a race, for all executions; C106_without_ttl: there is no race at all as long as no thread sets the TTL. C106_writes and C106_reads: the table of accesses is the one of the transitions, a transition writes only the variable which the table says is written and does not depend on the others."
  },
  {
   "property": "C107",
   "status": "proved",
   "theorems": [
    "Verif.C107_answered",
    "Verif.C107_atomic",
    "Verif.C107_called",
    "Verif.C107_ends",
    "Verif.C107_no_deadlock",
    "Verif.C107_returns",
    "Verif.C107_state"
   ],
   "note": "C107_atomic: the committed transitions are an execution of the coarse model of C50 and C51, whose state is that of the fine model when the mutex is free (C107_state). C107_returns: the value returned was committed by the same thread, during the same call. C107_no_deadlock. C107_answered: the lists which are returned were answered by the system. C107_called, C107_ends: a call makes no transition other than its own and ends with what it returns. The write of g_cache_ttl is taken as atomic (see C106)."
  },
  {
   "property": "C108",
   "status": "proved",
   "theorems": [
    "Verif.C108_no_race",
    "Verif.C108_once",
    "Verif.C108_reads",
    "Verif.C108_same",
    "Verif.C108_writes"
   ],
   "note": "C108_same, C108_once, C108_no_race over all executions; C108_writes and C108_reads: the table of accesses is the one of the transitions."
  },
  {
   "property": "C109",
   "status": "proved",
   "theorems": [
    "Verif.C109_interfaces",
    "Verif.C109_shared",
    "Verif.C109_unchanged",
    "Verif.C109_whole"
   ],
   "note": "C109_unchanged: after a vector was returned its content is the same at the end of every longer execution. C109_whole: what it holds. C109_interfaces: with a clock which does not go back, at any later moment the vector describes an answer of the system entry by entry (uses C63 and C50 through a refinement of the coarse cache). C109_shared: callers get the same vector, so what one of them would write to it the others would see; the callers of the model only read."
  },
  {
   "property": "C110",
   "status": "proved",
   "theorems": [
    "Verif.C110_apart",
    "Verif.C110_exact",
    "Verif.C110_ranges",
    "Verif.C110_touching"
   ],
   "note": "C110_exact is the whole statement; C110_ranges and C110_apart are its last sentence. C110_touching is a network of which only the first address is left since a range ends right before it. Empty ranges which are kept (no SORT_NO_EMPTY) are not covered. Generalises C102 to ranges."
  },
  {
   "property": "C111",
   "status": "proved",
   "theorems": [
    "Verif.C111_age",
    "Verif.C111_fresh",
    "Verif.C111_in_flight",
    "Verif.C111_reset"
   ],
   "note": "C111_reset, C111_age and C111_fresh speak of the numbers of the events which are seen from outside (calls, returns, answers, times); they carry C50 and C51 over to the model where a transition is a single access. C111_in_flight is an execution where a list answered before a reset is returned by a call made after it."
  },
  {
   "property": "C112",
   "status": "proved",
   "theorems": [
    "Verif.C112_ends",
    "Verif.C112_exact",
    "Verif.C112_left",
    "Verif.C112_not_cidr",
    "Verif.C112_only_removes",
    "Verif.C112_removed_before",
    "Verif.C112_returns",
    "Verif.C112_two",
    "Verif.C112_usual"
   ],
   "note": "C112_only_removes, C112_not_cidr, C112_returns, C112_ends, C112_exact, C112_two, C112_usual, C112_left. C112_removed_before shows why clashing networks within a larger one are not always a failure. Completes C34."
  },
  {
   "property": "C113",
   "status": "proved",
   "theorems": [
    "Verif.C113_clash",
    "Verif.C113_saved",
    "Verif.C113_usual",
    "Verif.C113_wide",
    "Verif.C113_writes_iff"
   ],
   "note": "C113_saved, C113_usual, C113_writes_iff. C113_wide and C113_clash show lists outside the usual ones which cannot be written, or make the loop throw; the networks which make it throw are in C112."
  },
  {
   "property": "C114",
   "status": "partial",
   "theorems": [
    "Verif.C114_claim_fails",
    "Verif.C114_merged_addresses",
    "Verif.C114_merged_partial",
    "Verif.C114_merged_throws",
    "Verif.C114_sorted",
    "Verif.C114_unsorted"
   ],
   "note": "The claim is false (C114_claim_fails): among ranges which are empty, the first one read decides what the network before them becomes when the list is merged. C114_sorted is the full claim without SORT_MERGE; C114_merged_partial is the one with SORT_MERGE for lists without empty ranges and without a mask after a range which has no first address. C114_merged_addresses and C114_merged_throws: no condition is left for parsers without address ranges. C115_order says what of the order counts otherwise. C114_unsorted: without a sort order the order of the ranges is the one of the text."
  },
  {
   "property": "C115",
   "status": "partial",
   "theorems": [
    "Verif.C115_claim_fails",
    "Verif.C115_exact",
    "Verif.C115_never_more",
    "Verif.C115_order"
   ],
   "note": "The claim is false (C115_claim_fails). C115_exact says exactly what a merged list with empty ranges matches: what C104 says of the other ranges, except that the address which is the last of the sorted list loses its mask when the first empty range has a bound next to it. C115_never_more: an empty range never adds an address. C115_order: the order of the entries only counts through the first empty range. A mask after a range without a first address is covered by C116."
  },
  {
   "property": "C116",
   "status": "partial",
   "theorems": [
    "Verif.C116_added",
    "Verif.C116_claim_fails",
    "Verif.C116_exact",
    "Verif.C116_returns"
   ],
   "note": "The claim is false (C116_claim_fails): \"-10.0.0.5/100,10.0.0.5\". C116_exact says what a merged list matches for all lists, empty ranges and masks after ranges included (it contains C104_exact and C115_exact). C116_added: every address which is added comes from a mask after a range without a first address. C116_returns: with masks of 96 bits or more merging does not throw (C103 says exactly when it does for lists without empty ranges)."
  },
  {
   "property": "C117",
   "status": "proved",
   "theorems": [
    "Verif.C117_list_iff",
    "Verif.C117_mask_iff",
    "Verif.C117_mask_list_iff",
    "Verif.C117_valid_iff"
   ],
   "note": "The item grammar is stated by ValidItem/ValidNetwork (Entry, WrittenRange, RangeMaskOf) and the items of a list by ItemOf, without reference to the parser; the case of one address without range is C89. Not covered: a left-out address together with a hyphen in the value, or with a mask where ranges are allowed."
  },
  {
   "property": "C118",
   "status": "proved",
   "theorems": [
    "Verif.C118_default",
    "Verif.C118_text",
    "Verif.C118_validated"
   ],
   "note": "C118_text, C118_default and C118_validated. getaddrinfo() is any function which answers questions about numeric addresses with decimal services as in NumericService (SpecStringToAddr.lean); a port which is not written in decimal without leading zeros is passed on to getaddrinfo() as a service name and is not covered."
  },
  {
   "property": "C119",
   "status": "partial",
   "theorems": [
    "Verif.C119_address",
    "Verif.C119_claim_fails",
    "Verif.C119_default_exact",
    "Verif.C119_list",
    "Verif.C119_range"
   ],
   "note": "C119_address, C119_range and C119_list are the claims proved as stated. The claim for ranges in the default mode fails (C119_claim_fails: \"[::1]-[::5]:0/128\" is refused); C119_default_exact says exactly when it holds: no end, or only IPv4 addresses."
  },
  {
   "property": "C120",
   "status": "proved",
   "theorems": [
    "Verif.C120_call",
    "Verif.C120_constructed",
    "Verif.C120_kept",
    "Verif.C120_last",
    "Verif.C120_loopback",
    "Verif.C120_new"
   ],
   "note": "C120_new, C120_constructed, C120_call (one call changes only the attributes in the table setsAttr), C120_kept (histories) and C120_last (the last call counts). The cached network type is the subject of C12 and C13."
  },
  {
   "property": "C121",
   "status": "partial",
   "theorems": [
    "Verif.C121_call",
    "Verif.C121_claim_fails",
    "Verif.C121_history",
    "Verif.C121_missing",
    "Verif.C121_queries",
    "Verif.C121_same"
   ],
   "note": "C121_call, C121_history, C121_queries, C121_missing and C121_same prove it for programs which change a bound through a reference only when the bound is there. Without this get_from() gives something else than a new address although has_from() is false (C121_claim_fails)."
  },
  {
   "property": "C122",
   "status": "partial",
   "theorems": [
    "Verif.C122_claim_fails",
    "Verif.C122_expands",
    "Verif.C122_list",
    "Verif.C122_network",
    "Verif.C122_range",
    "Verif.C122_single"
   ],
   "note": "The claim fails for networks (C122_claim_fails). C122_single says exactly for which ranges with one bound it holds, C122_range proves it for ranges with two bounds, C122_network, C122_expands and C122_list for networks turned into ranges with from_cidr(). Networks which end with the largest address are the loop of C26."
  },
  {
   "property": "C123",
   "status": "proved",
   "theorems": [
    "Verif.C123_commas",
    "Verif.C123_commas_no_effect",
    "Verif.C123_no_effect"
   ],
   "note": "C123_no_effect for the calls without effect (any sequence of them), C123_commas for the effect of ALLOW_MULTI_PORTS_COMMAS, C123_commas_no_effect when commas do not separate addresses. The documentation of set_allow() marks ALLOW_ADDRESS_RANGE as not implemented too: that one is implemented (C97)."
  },
  {
   "property": "C124",
   "status": "partial",
   "theorems": [
    "Verif.C124_agree_partial",
    "Verif.C124_claim_fails",
    "Verif.C124_lookups_partial",
    "Verif.C124_more_partial"
   ],
   "note": "C124_more_partial and C124_agree_partial prove it for the parsers which look up no names; C124_lookups_partial proves it for the parsers which look up names and have no masks, for the texts without a hyphen where ranges get allowed and without a slash or default mask where masks get allowed; C124_claim_fails shows that it is false for the others: a host name with a hyphen is accepted until ranges are allowed."
  },
  {
   "property": "C125",
   "status": "proved",
   "theorems": [
    "Verif.C125_call",
    "Verif.C125_history",
    "Verif.C125_kept",
    "Verif.C125_same",
    "Verif.C125_seen"
   ],
   "note": "C125_call: each call against a description of its effect on (scheme, name, mode, group); C125_history and C125_kept for sequences; C125_same: two objects seen in the same way stay so; C125_seen: every object is seen in exactly one way."
  },
  {
   "property": "C126",
   "status": "partial",
   "theorems": [
    "Verif.C126_address_port",
    "Verif.C126_brackets_partial",
    "Verif.C126_claim_fails",
    "Verif.C126_flags",
    "Verif.C126_identifies",
    "Verif.C126_ipv4",
    "Verif.C126_ipv4or6",
    "Verif.C126_ipv6",
    "Verif.C126_refused"
   ],
   "note": "C126_ipv4, C126_ipv6, C126_ipv4or6: the text exactly, as relations on the flags and values; C126_refused: the other outcomes; C126_flags; C126_identifies; C126_address_port: the mode STRING_IP_ADDRESS_PORT. C126_claim_fails: STRING_IP_NO_BRACKETS includes the port and so has brackets; C126_brackets_partial says which modes have them."
  },
  {
   "property": "C127",
   "status": "partial",
   "theorems": [
    "Verif.C127_claim_fails",
    "Verif.C127_in_list",
    "Verif.C127_index_partial",
    "Verif.C127_listed",
    "Verif.C127_nul"
   ],
   "note": "C127_listed, C127_in_list and C127_index_partial for the names without a null character; C127_nul: what follows a null character is ignored, so that the claim is false for such texts (C127_claim_fails)."
  },
  {
   "property": "C128",
   "status": "partial",
   "theorems": [
    "Verif.C128_bounds",
    "Verif.C128_claim_fails",
    "Verif.C128_invalid_port",
    "Verif.C128_masks",
    "Verif.C128_ports",
    "Verif.C128_refused",
    "Verif.C128_required",
    "Verif.C128_true_partial",
    "Verif.C128_unknown"
   ],
   "note": "C128_true_partial: all the messages, of which two do not say whether the address has the syntax they mention; C128_ports, C128_unknown, C128_invalid_port, C128_required, C128_refused, C128_bounds, C128_masks: what follows from a message which starts with a given text. The claim on the IPv6 syntax is false (C128_claim_fails)."
  },
  {
   "property": "C129",
   "status": "proved",
   "theorems": [
    "Verif.C129_both",
    "Verif.C129_decided",
    "Verif.C129_from",
    "Verif.C129_neither",
    "Verif.C129_numeric",
    "Verif.C129_spread",
    "Verif.C129_to"
   ],
   "note": "C129_decided: a bound is good or it is not; C129_spread, C129_numeric: which bounds are good; C129_from, C129_to, C129_both, C129_neither: what parse() returns and how many errors it adds."
  },
  {
   "property": "C130",
   "status": "partial",
   "theorems": [
    "Verif.C130_claim_fails",
    "Verif.C130_flags",
    "Verif.C130_has_partial"
   ],
   "note": "C130_flags: the functions tell the flags, and what the two addresses are in each case; C130_has_partial: the claim where every entry with one of the flags has an address; C130_claim_fails: the claim is false."
  },
  {
   "property": "C131",
   "status": "partial",
   "theorems": [
    "Verif.C131_claim_fails",
    "Verif.C131_claim_partial",
    "Verif.C131_matches",
    "Verif.C131_networks",
    "Verif.C131_not_number",
    "Verif.C131_unknown"
   ],
   "note": "C131_networks, C131_unknown, C131_not_number: which networks and how many errors; C131_matches: which addresses match, exactly; C131_claim_partial: the last sentence for hosts with IPv4 addresses only; C131_claim_fails: it is false for localhost/8 with the addresses 127.0.0.1 and ::1."
  },
  {
   "property": "C132",
   "status": "proved",
   "theorems": [
    "Verif.C132_host",
    "Verif.C132_interfaces",
    "Verif.C132_mask",
    "Verif.C132_no_leak"
   ],
   "note": "C132_host, C132_mask, C132_interfaces: refinement of the models of the content, with the memory unchanged; C132_no_leak: any sequence of questions. The mask needs a success to have at least one answer (SomeAnswer)."
  },
  {
   "property": "C133",
   "status": "proved",
   "theorems": [
    "Verif.C133_list_iff",
    "Verif.C133_no_options",
    "Verif.C133_numeric",
    "Verif.C133_valid_iff"
   ],
   "note": "C133_valid_iff: one item; C133_list_iff: lists; C133_no_options: the default options are among these; C133_numeric: numbers are valid."
  },
  {
   "property": "C134",
   "status": "proved",
   "theorems": [
    "Verif.C134_exact",
    "Verif.C134_merged",
    "Verif.C134_stable_sort",
    "Verif.C134_unique"
   ],
   "note": "C134_exact: equivalence with the specification StableOrder; C134_unique: it has one solution at most; C134_merged: with SORT_MERGE; C134_stable_sort: the model of std::stable_sort() is the one of the standard. It strengthens C43_sort_permutes, which leaves the order of empty ranges open."
  },
  {
   "property": "C135",
   "status": "proved",
   "theorems": [
    "Verif.C135_history",
    "Verif.C135_names",
    "Verif.C135_numbers"
   ],
   "note": "C135_numbers: without lookups; C135_names: with them; C135_history: sequences of calls."
  },
  {
   "property": "C136",
   "status": "proved",
   "theorems": [
    "Verif.C136_columns",
    "Verif.C136_decodes",
    "Verif.C136_no_mask",
    "Verif.C136_short",
    "Verif.C136_truncated"
   ],
   "note": "C136_columns: same result as for the table of Linux; C136_decodes: each line is the route its words say; C136_truncated; C136_short; C136_no_mask."
  },
  {
   "property": "C137",
   "status": "proved",
   "theorems": [
    "Verif.C137_case",
    "Verif.C137_match",
    "Verif.C137_numeric",
    "Verif.C137_string_to_addr",
    "Verif.C137_validate"
   ],
   "note": "C137_case for any parser; C137_numeric without lookups; C137_match; C137_validate; C137_string_to_addr. The hypothesis CaseBlind is about getaddrinfo() and convert_to_int(): it leaves out texts with the name of an interface after a percent sign when lookups are allowed, since these names are not indifferent to case; C137_numeric needs nothing of the name service."
  },
  {
   "property": "C138",
   "status": "partial",
   "theorems": [
    "Verif.C138_accesses",
    "Verif.C138_answers_fail",
    "Verif.C138_asked",
    "Verif.C138_claim_fails",
    "Verif.C138_copy_fails",
    "Verif.C138_partial",
    "Verif.C138_public",
    "Verif.C138_race_iff",
    "Verif.C138_right_iff",
    "Verif.C138_settled",
    "Verif.C138_turns"
   ],
   "note": "False: C138_claim_fails (data race), C138_answers_fail (10.0.0.1 is said to be an address of the Internet even if the accesses were atomic, because NETWORK_TYPE_UNKNOWN is written first), C138_copy_fails (a copy made at that moment stays wrong). What is true: C138_partial (a reply is right or the one for the Internet), C138_public, C138_asked (no write once the type is known), C138_race_iff and C138_right_iff (exactly when), C138_settled, C138_turns (calls which do not overlap), C138_accesses (the accesses of the model are all there). Sequentially consistent memory."
  },
  {
   "property": "C139",
   "status": "partial",
   "theorems": [
    "Verif.C139_accesses",
    "Verif.C139_all_valid",
    "Verif.C139_answers_fail",
    "Verif.C139_claim_fails",
    "Verif.C139_partial",
    "Verif.C139_turns",
    "Verif.C139_wrongly_invalid",
    "Verif.C139_wrongly_valid"
   ],
   "note": "False: C139_claim_fails (a data race as soon as two calls overlap), C139_answers_fail and C139_wrongly_valid (an invalid value is said to be valid when another thread begins to validate something, even if the functions of the parser were atomic), C139_wrongly_invalid (a valid value is refused with the messages about the value of another thread). What is true of all executions: C139_partial (exceptions are right; false is only returned when one of the values is invalid), C139_all_valid; C139_turns (calls which do not overlap, whatever happened before), C139_accesses (the accesses of the model are all there)."
  },
  {
   "property": "C140",
   "status": "proved",
   "theorems": [
    "Verif.C140_mapped",
    "Verif.C140_prefix_alone",
    "Verif.C140_repeats",
    "Verif.C140_spelling"
   ],
   "note": "C140_spelling: any two texts with the same entries in any order, merged or not (from C86_list and C110_exact: the answer is a function of the entries). C140_repeats: without merging only the set of the entries counts. C140_mapped: the spellings of an IPv4 network. C140_prefix_alone: \"::ffff:10.0.0.0/8\" is not one of them, it also allows 11.0.0.1."
  },
  {
   "property": "C141",
   "status": "partial",
   "theorems": [
    "Verif.C141_claim_fails",
    "Verif.C141_exact",
    "Verif.C141_partial",
    "Verif.C141_unmerged"
   ],
   "note": "C141_unmerged: true without SORT_MERGE. False with it (C141_claim_fails): \"10.0.1.0/24\" matches 10.0.1.5, \"10.0.1.0/24,10.0.0.9-10.0.0.255\" does not. C141_exact: exactly when the longer list throws, and exactly which addresses are lost: those of a network which was alone and of which the address written is overlapped or touched by another entry. C141_partial: the claim when this does not happen."
  },
  {
   "property": "C142",
   "status": "partial",
   "theorems": [
    "Verif.C142_claim_fails",
    "Verif.C142_no_route",
    "Verif.C142_overlap_fails",
    "Verif.C142_partial"
   ],
   "note": "False: only the networks of the interfaces and the default route are looked at, so that an address which is reached through another route (172.16.0.0/12 through tun0) is said to be on the interface of the default route (C142_claim_fails); among overlapping networks the first one is taken, not the one with the most bits (C142_overlap_fails). C142_partial: the claim for machines whose routes are those of the networks of their interfaces, which do not overlap, and default routes in the order of their metrics; C142_no_route: nothing is returned there without a route."
  },
  {
   "property": "C143",
   "status": "partial",
   "theorems": [
    "Verif.C143_claim_fails",
    "Verif.C143_exact",
    "Verif.C143_partial",
    "Verif.C143_refused"
   ],
   "note": "False (C143_claim_fails: fc00::1). C143_exact: the addresses said to be of the Internet which are not globally reachable are exactly those of the blocks 0.0.0.0/8 (without 0.0.0.0), 192.0.0.0/24 (without .9 and .10), 192.0.2.0/24, 198.18.0.0/15, 198.51.100.0/24, 203.0.113.0/24, 240.0.0.0/4, 64:ff9b:1::/48, 100::/64, 2001:2::/48, 5f00::/16 and fc00::/8. C143_refused: never the other way round. C143_partial: the claim for the other addresses."
  },
  {
   "property": "C144",
   "status": "partial",
   "theorems": [
    "Verif.C144_claim_fails",
    "Verif.C144_numeric",
    "Verif.C144_partial"
   ],
   "note": "False (C144_claim_fails: without a protocol, 10.0.0.1:80 becomes three ranges, for TCP, UDP and IP). C144_numeric: for ports written in decimal (or by default), exactly the same address, port, mask, host name and port_defined flag is read, once for TCP and UDP and three times otherwise, and no error is added. C144_partial: the claim for TCP and UDP. Ports which convert_string() reads but which are not written in decimal without leading zeros are not covered. getaddrinfo() is assumed to read numeric addresses and ports (NumericService)."
  },
  {
   "property": "C145",
   "status": "partial",
   "theorems": [
    "Verif.C145_claim_fails",
    "Verif.C145_lan_ends_partial",
    "Verif.C145_lan_exact",
    "Verif.C145_wan_ends_fail",
    "Verif.C145_wan_exact"
   ],
   "note": "False (C145_claim_fails: 10.0.0.0/4 is said to be local and matches 8.8.8.8), since the type is the one of the address and the mask is not looked at. C145_lan_exact: exactly the networks within one of the local blocks have only local addresses. C145_lan_ends_partial: to be sure it is enough to ask is_lan() of the first and of the last address of the network. C145_wan_exact: exactly the networks which match the first address of none of the known blocks have only addresses of the Internet; C145_wan_ends_fail: asking both ends is not enough (8.0.0.0/6). As in C12 to C14 the type is the one of an object whose cached type is right (Fresh)."
  },
  {
   "property": "C146",
   "status": "proved",
   "theorems": [
    "Verif.C146_any_order",
    "Verif.C146_order",
    "Verif.C146_same_kind"
   ],
   "note": "C146_order: the full statement, exceptions and undefined behaviour included (no assumption on the environment). C146_any_order: any permutation of options about different things. C146_same_kind: the order of mask=yes and mask=no counts. \"default\" and \"defaults\" are the same option."
  },
  {
   "property": "C147",
   "status": "proved",
   "theorems": [
    "Verif.C147_list",
    "Verif.C147_questions",
    "Verif.C147_sound",
    "Verif.C147_total"
   ],
   "note": "C147_list: the ranges are made of the answers, in order, with the exact number of errors (relation Answered; C147_total: it holds of every list). C147_sound: no range comes from anywhere else, and without a new error every entry was found. C147_questions: only the questions of the entries matter. Assumes SafeAnswers (answers of the right family and a known protocol), as C92."
  },
  {
   "property": "C148",
   "status": "proved",
   "theorems": [
    "Verif.C148_matches",
    "Verif.C148_same_entries"
   ],
   "note": "C148_matches: the full statement, merging included. C148_same_entries: order, repetition and sort order do not matter. Assumes SafeAnswers as C92 and C147."
  },
  {
   "property": "C149",
   "status": "proved",
   "theorems": [
    "Verif.C149_limit",
    "Verif.C149_list_iff",
    "Verif.C149_valid_iff"
   ],
   "note": "C149_valid_iff (one address) and C149_list_iff (lists): the full statement. C149_limit: what it means for a host with an IPv4 address. Assumes SafeAnswers, as C133."
  },
  {
   "property": "C150",
   "status": "partial",
   "theorems": [
    "Verif.C150_apart",
    "Verif.C150_claim_fails",
    "Verif.C150_matches_partial",
    "Verif.C150_merged"
   ],
   "note": "False when the parser merges (C150_claim_fails: the host twin has the addresses 10.0.0.255 and 10.0.1.0, and twin/24 merged no longer lets 10.0.1.5 in). Proved: the statement for every sort order without merging (C150_matches_partial); for parsers which merge, exactly when parse() throws and what is left (C150_merged, as C102), and the statement when no two addresses of the hosts are next to each other (C150_apart). In C150_merged the list Q says which networks there are; how often one occurs in it is not stated. Assumes SafeAnswers, as C133."
  },
  {
   "property": "C151",
   "status": "partial",
   "theorems": [
    "Verif.C151_claim_fails",
    "Verif.C151_list_partial",
    "Verif.C151_merged",
    "Verif.C151_range"
   ],
   "note": "False for a range which ends with the largest address: to_addresses() does not end (C151_claim_fails; as C26). Proved: C151_list_partial (parsers which do not merge: exact order when unsorted, the same numbers in any sort order, and when it throws), C151_range (one range with a port), C151_merged (each number once; limits below 2^32, addresses and ranges without masks). Missing: ranges which end with the largest address or hold 2^127 addresses (false for them), and lists of which the number of entries times the limit is not a size_t."
  },
  {
   "property": "C152",
   "status": "proved",
   "theorems": [
    "Verif.C152_bare",
    "Verif.C152_bare_exists",
    "Verif.C152_lines",
    "Verif.C152_list",
    "Verif.C152_matches",
    "Verif.C152_networks",
    "Verif.C152_same_pieces"
   ],
   "note": "C152_bare: the equality with the list of the pieces, for every configuration in list mode (C152_bare_exists: there is such a list); C152_same_pieces; C152_list; C152_matches; C152_networks (not merged, no address left out; merging is C150); C152_lines."
  },
  {
   "property": "C153",
   "status": "proved",
   "theorems": [
    "Verif.C153_found",
    "Verif.C153_iff",
    "Verif.C153_masked",
    "Verif.C153_masked_iff",
    "Verif.C153_unknown",
    "Verif.C153_unmasked"
   ],
   "note": "C153_found, C153_unknown, C153_iff (without masks); C153_masked, C153_unmasked, C153_masked_iff (with masks, for texts which do not leave the address out). The text is not empty; other protocols are C68_other_protocols."
  },
  {
   "property": "C154",
   "status": "proved",
   "theorems": [
    "Verif.C154_asks_only",
    "Verif.C154_list",
    "Verif.C154_numeric_only",
    "Verif.C154_string_to_addr",
    "Verif.C154_validator"
   ],
   "note": "C154_asks_only (every configuration), C154_list (lists, without the comments), C154_numeric_only (no lookups), C154_validator, C154_string_to_addr. Stated as independence: two name services which agree on the questions allowed give the same outcome. The model does not count the calls. In a text with one address only a comment after leading spaces is read as text (C42), so it may be asked for."
  },
  {
   "property": "C155",
   "status": "proved",
   "theorems": [
    "Verif.C155_differs",
    "Verif.C155_list",
    "Verif.C155_more_names",
    "Verif.C155_string_to_addr",
    "Verif.C155_validator"
   ],
   "note": "C155_more_names, C155_list, C155_validator, C155_string_to_addr, C155_differs: all configurations, no hypothesis on the answers."
  },
  {
   "property": "C156",
   "status": "proved",
   "theorems": [
    "Verif.C156_around",
    "Verif.C156_comment",
    "Verif.C156_list",
    "Verif.C156_string_to_addr",
    "Verif.C156_text",
    "Verif.C156_validator"
   ],
   "note": "C156_text, C156_around (one address, no comments), C156_list (lists, items with and without comments), C156_comment (one address with a comment after it), C156_validator, C156_string_to_addr. A blank before a text which is only a comment is C42."
  },
  {
   "property": "C157",
   "status": "proved",
   "theorems": [
    "Verif.C157_comma",
    "Verif.C157_comment_line",
    "Verif.C157_files",
    "Verif.C157_nothing",
    "Verif.C157_sorted",
    "Verif.C157_two"
   ],
   "note": "C157_two, C157_files (unsorted: ranges, errors, failures), C157_sorted (sorted, not merged: a permutation, and what matches), C157_nothing and C157_comment_line (what may be added, in any order and when merged). C157_comma: where lines have comments, a comma does not do. What merging loses is C102, C110 and C141."
  },
  {
   "property": "C158",
   "status": "partial",
   "theorems": [
    "Verif.C158_claim_fails",
    "Verif.C158_invalid_partial",
    "Verif.C158_several",
    "Verif.C158_valid_partial"
   ],
   "note": "False when the name service gives an answer which is not an address next to one which is (C158_claim_fails): string_to_addr() ignores the error. C158_valid_partial and C158_invalid_partial: the claim for usable answers, and for all answers when masks are read. C158_several: the last sentence, exactly, for all name services. C155_string_to_addr (in the same file) extends C155."
  },
  {
   "property": "C159",
   "status": "proved",
   "theorems": [
    "Verif.C159_list",
    "Verif.C159_merged",
    "Verif.C159_names",
    "Verif.C159_networks"
   ],
   "note": "C159_names (host names, any sort order and merging), C159_networks (networks around hosts, not merged), C159_merged (merged, when both calls return), C159_list (the ranges and the number of errors, unsorted). Answers about hosts are IPv4 and IPv6 addresses with a known protocol (SafeAnswers), as in C148 and C150."
  },
  {
   "property": "C160",
   "status": "proved",
   "theorems": [
    "Verif.C160_bracketed",
    "Verif.C160_default",
    "Verif.C160_dotted",
    "Verif.C160_notations"
   ],
   "note": "C160_notations: equal results exactly when the same bits count; C160_dotted, C160_bracketed: the number of bits against the address of this mask; C160_default: the default mask."
  },
  {
   "property": "C161",
   "status": "proved",
   "theorems": [
    "Verif.C161_matches",
    "Verif.C161_merged",
    "Verif.C161_parse",
    "Verif.C161_ranges_differ",
    "Verif.C161_sorted",
    "Verif.C161_string_to_addr"
   ],
   "note": "C161_string_to_addr: equal outcomes; C161_parse: permuted ranges and equal error counts for any text; C161_matches: the same addresses matched; C161_sorted and C161_merged: parsers which sort or merge. Address ranges are left out: the protocol of a bound is the one of the first answer (C161_ranges_differ)."
  },
  {
   "property": "C162",
   "status": "partial",
   "theorems": [
    "Verif.C162_claim_fails",
    "Verif.C162_merged_partial",
    "Verif.C162_not_merged",
    "Verif.C162_returns"
   ],
   "note": "False of the code with SORT_MERGE (C162_claim_fails): \"::ffff:10.0.0.0/90\" is accepted once, and parse() throws out_of_range when it is written twice. C162_not_merged is the full claim without SORT_MERGE. C162_merged_partial: with SORT_MERGE, when both calls return and no range is empty, the bounds and what is matched are the same. C162_returns: both return when each mask suits the address which starts its run."
  }
 ]
}