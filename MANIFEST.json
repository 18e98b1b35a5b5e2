{
 "claims": [
  {
   "property": "C01",
   "status": "proved",
   "theorems": [
    "Fasttld.Props.C01_extract_returns"
   ],
   "note": ""
  },
  {
   "property": "C02",
   "status": "proved",
   "theorems": [
    "Fasttld.Props.C02_url_reassembly_ignoring",
    "Fasttld.Props.C02_url_reassembly"
   ],
   "note": ""
  },
  {
   "property": "C03",
   "status": "partial",
   "theorems": [
    "Fasttld.Props.C03_reassembly_partial",
    "Fasttld.Props.C03_reassembly_puny_partial",
    "Fasttld.Props.C03_counterexample",
    "Fasttld.Props.C03_anchored",
    "Fasttld.Props.C03_exact"
   ],
   "note": "Host = SubDomain/Domain/Suffix with separators, then a tail. That the tail is only separators needs: no Suffix, or every top-level label of the list is a rule or the parent of a wildcard. The full claim is false of the code (C03_counterexample: co.za without za drops the .za). C03_exact: for a well-formed list the claim holds for all URLs if and only if the list is anchored (every rule that can be reached has a top-level label that is a rule or the parent of a wildcard)."
  },
  {
   "property": "C04",
   "status": "proved",
   "theorems": [
    "Fasttld.Props.C04_separator_only",
    "Fasttld.Props.C04_registeredDomain"
   ],
   "note": ""
  },
  {
   "property": "C05",
   "status": "proved",
   "theorems": [
    "Fasttld.Props.C05_success",
    "Fasttld.Props.C05_failure",
    "Fasttld.Props.C05_ipv6_port_example"
   ],
   "note": ""
  },
  {
   "property": "C06",
   "status": "proved",
   "theorems": [
    "Fasttld.Props.C06_ignoreSubDomains"
   ],
   "note": ""
  },
  {
   "property": "C07",
   "status": "proved",
   "theorems": [
    "Fasttld.Props.C07_whitespace_irrelevant"
   ],
   "note": ""
  },
  {
   "property": "C08",
   "status": "proved",
   "theorems": [
    "Fasttld.Props.C08_scheme_exact"
   ],
   "note": ""
  },
  {
   "property": "C09",
   "status": "partial",
   "theorems": [
    "Fasttld.Props.C09_counterexample",
    "Fasttld.Props.C09_shape_partial",
    "Fasttld.Props.C09_exact"
   ],
   "note": "The claim is false of the code: C09_counterexample (example.com//evil.co.uk). C09_exact: it fails exactly for URLs that begin with a name and two slashes. C09_shape_partial proves the weaker shape of the scheme."
  },
  {
   "property": "C10",
   "status": "proved",
   "theorems": [
    "Fasttld.Props.C10_userinfo_exact"
   ],
   "note": ""
  },
  {
   "property": "C11",
   "status": "partial",
   "theorems": [
    "Fasttld.Props.C11_negative_zero_accepted",
    "Fasttld.Props.C11_exact",
    "Fasttld.Props.C11_port_range_partial",
    "Fasttld.Props.C11_bad_port_rejected",
    "Fasttld.Props.C11_sign_accepted"
   ],
   "note": "Proved with the signs that strconv.Atoi accepts: +80 and -0 are accepted as ports (C11_sign_accepted). The rejection half is proved in full. C11_exact: the port is a numeral if and only if it does not begin with a sign."
  },
  {
   "property": "C12",
   "status": "proved",
   "theorems": [
    "Fasttld.Props.C12_path_exact"
   ],
   "note": ""
  },
  {
   "property": "C13",
   "status": "partial",
   "theorems": [
    "Fasttld.Props.C13_isIPv6_exact_partial",
    "Fasttld.Props.C13_wider_than_rfc4291",
    "Fasttld.Props.C13_exact"
   ],
   "note": "Exact for the grammar in Spec/Net. The claim as stated is false of the code: zero-padded groups, other separators in the dotted tail and separators after it are accepted (C13_wider_than_rfc4291). C13_exact: what is accepted is an address of RFC 4291 if and only if it has no five hexadecimal digits in a row, no other separator and no dot at the end; all addresses of RFC 4291 are accepted."
  },
  {
   "property": "C14",
   "status": "proved",
   "theorems": [
    "Fasttld.Props.C14_isIPv4_exact"
   ],
   "note": ""
  },
  {
   "property": "C15",
   "status": "partial",
   "theorems": [
    "Fasttld.Props.C15_ipv4_partial",
    "Fasttld.Props.C15_only_ipv4",
    "Fasttld.Props.C15_counterexample",
    "Fasttld.Props.C15_noOctetTop",
    "Fasttld.Props.C15_exact"
   ],
   "note": "Domain equals the address if no rule ends in the last octet; without that condition Domain is a non-empty prefix (C15_counterexample). Success, host type, empty SubDomain and Suffix and the converse are proved for all lists. C15_exact: the address is whole for all URLs if and only if no rule of two or more labels has an octet as top-level label (or there is a rule *)."
  },
  {
   "property": "C16",
   "status": "proved",
   "theorems": [
    "Fasttld.Props.C16_brackets",
    "Fasttld.Props.C16_ipv6_only_from_brackets"
   ],
   "note": "'Valid IPv6 literal' is the notation of C13's theorem, wider than RFC 4291 (C13_wider_than_rfc4291)."
  },
  {
   "property": "C17",
   "status": "partial",
   "theorems": [
    "Fasttld.Props.C17_counterexample_deep",
    "Fasttld.Props.C17_counterexample_exception",
    "Fasttld.Props.C17_algorithm",
    "Fasttld.Props.C17_tame_partial",
    "Fasttld.Props.C17_public_suffix_partial",
    "Fasttld.Props.C17_counterexample_gap",
    "Fasttld.Props.C17_counterexample_top",
    "Fasttld.Props.C17_counterexample_shadow",
    "Fasttld.Props.C17_counterexample_bare"
   ],
   "note": "Proved, in both punycode modes and for the percent-decoded labels, for names for which the rule list is Regular (no gaps, no rule longer than a wildcard next to it, no bare *, exceptions have their wildcard); if a label is spelled with escapes there must be no exception rules. The condition is weakened to Tame in C17_tame_partial; C55 shows that on the level of lists it is exact. Outside of it the claim is false; four counterexample theorems."
  },
  {
   "property": "C18",
   "status": "proved",
   "theorems": [
    "Fasttld.Props.C18_same_rules"
   ],
   "note": ""
  },
  {
   "property": "C19",
   "status": "proved",
   "theorems": [
    "Fasttld.Props.C19_index",
    "Fasttld.Props.C19_labels"
   ],
   "note": ""
  },
  {
   "property": "C20",
   "status": "proved",
   "theorems": [
    "Fasttld.Props.C20_domain_single_label"
   ],
   "note": ""
  },
  {
   "property": "C21",
   "status": "partial",
   "theorems": [
    "Fasttld.Props.C21_counterexample_others",
    "Fasttld.Props.C21_no_invalid_chars_partial",
    "Fasttld.Props.C21_counterexample",
    "Fasttld.Props.C21_counterexample_unchecked",
    "Fasttld.Props.C21_wellFormed",
    "Fasttld.Props.C21_exact"
   ],
   "note": "Proved except for U+0378, U+206B, U+2A74, which the code accepts (C21_counterexample); when there is no Suffix it needs every top-level label of the list to be a rule (C21_counterexample_unchecked). C21_wellFormed: for a well-formed list it holds for all URLs, up to those three characters. C21_exact: then it holds for a host if and only if none of the three is in it."
  },
  {
   "property": "C22",
   "status": "partial",
   "theorems": [
    "Fasttld.Props.C22_no_empty_labels_partial",
    "Fasttld.Props.C22_counterexample",
    "Fasttld.Props.C22_topRules",
    "Fasttld.Props.C22_exact"
   ],
   "note": "Proved for the separators other than U+FF61, which the code lets through (C22_counterexample); when there is no Suffix it needs every top-level label of the list to be a rule. C22_exact: where U+FF61 does not occur, it holds for all URLs if and only if every top-level label of the (well-formed) list is a rule or the parent of a wildcard."
  },
  {
   "property": "C23",
   "status": "partial",
   "theorems": [
    "Fasttld.Props.C23_separators_partial",
    "Fasttld.Props.C23_counterexample",
    "Fasttld.Props.C23_exact",
    "Fasttld.Props.C23_all_spellings"
   ],
   "note": "Proved for hosts without U+FF61, and for hosts whose only empty labels are at the end. U+FF61 is accepted at the start and next to a separator where the other separators are not (C23_counterexample). Acceptance by the IDNA library of the new spelling is a hypothesis (HostTextOf). C23_exact: when a new spelling is accepted with the same labels, for all hosts; otherwise it is reported as invalid. C23_all_spellings: for which labels every spelling is accepted."
  },
  {
   "property": "C24",
   "status": "partial",
   "theorems": [
    "Fasttld.Props.C24_decoded",
    "Fasttld.Props.C24_malformed",
    "Fasttld.Props.C24_malformed_only",
    "Fasttld.Props.C24_decoded_partial",
    "Fasttld.Props.C24_counterexample"
   ],
   "note": "Malformed escapes are errors and only they are (full). The cut depends only on the decoded labels, except that exception rules are compared with the undecoded label (C24_counterexample). C24_decoded: for all lists, two hosts with the same decoded labels are cut in the same way if and (with a Suffix) only if the exception at the first wildcard applies to both or to neither."
  },
  {
   "property": "C25",
   "status": "proved",
   "theorems": [
    "Fasttld.Props.C25_unknown_tld"
   ],
   "note": ""
  },
  {
   "property": "C26",
   "status": "partial",
   "theorems": [
    "Fasttld.Props.C26_exact",
    "Fasttld.Props.C26_names",
    "Fasttld.Props.C26_subdomain_partial",
    "Fasttld.Props.C26_counterexample"
   ],
   "note": "Proved if there is a Suffix, or if every top-level label of the list is a rule or the parent of a wildcard; false otherwise (C26_counterexample). C26_exact: this condition on the (well-formed) list is exact; C26_names: for names of proper labels the exact condition is that the list is anchored."
  },
  {
   "property": "C27",
   "status": "partial",
   "theorems": [
    "Fasttld.Props.C27_registered_partial",
    "Fasttld.Props.C27_self_partial",
    "Fasttld.Props.C27_counterexample_top",
    "Fasttld.Props.C27_counterexample_dash",
    "Fasttld.Props.C27_counterexample_ipv4",
    "Fasttld.Props.C27_exact"
   ],
   "note": "Needs: every top-level label is a rule or the parent of a wildcard, Domain does not begin with a hyphen, RegisteredDomain is not an IPv4 address. Each condition is needed (three counterexample theorems). C27_exact: for anchored lists, a weaker condition, the other two conditions are exactly the right ones."
  },
  {
   "property": "C28",
   "status": "partial",
   "theorems": [
    "Fasttld.Props.C28_exact",
    "Fasttld.Props.C28_failure",
    "Fasttld.Props.C28_literal_failure",
    "Fasttld.Props.C28_host_independent_partial",
    "Fasttld.Props.C28_counterexample",
    "Fasttld.Props.C28_literal_independent_partial"
   ],
   "note": "First half (both succeed) is covered in full. Second half needs a valid port and path in both URLs: a bad port is reported before a bad host (C28_counterexample). C28_exact: exactly for which endings it holds; C28_failure, C28_literal_failure: what is reported otherwise."
  },
  {
   "property": "C29",
   "status": "proved",
   "theorems": [
    "Fasttld.Props.C29_parse_exact",
    "Fasttld.Props.C29_format"
   ],
   "note": ""
  },
  {
   "property": "C30",
   "status": "partial",
   "theorems": [
    "Fasttld.Props.C30_irrelevant_lines_partial",
    "Fasttld.Props.C30_insert_partial",
    "Fasttld.Props.C30_white_space",
    "Fasttld.Props.C30_crlf",
    "Fasttld.Props.C30_marker_matters",
    "Fasttld.Props.C30_exact"
   ],
   "note": "White space and CRLF in full. Comments other than the BEGIN PRIVATE marker line, which is a comment and changes the result (C30_marker_matters). C30_exact: exactly when a marker line changes the lists."
  },
  {
   "property": "C31",
   "status": "proved",
   "theorems": [
    "Fasttld.Props.C31_markers_in_line",
    "Fasttld.Props.C31_private_hidden",
    "Fasttld.Props.C31_private_hidden_bytes"
   ],
   "note": ""
  },
  {
   "property": "C32",
   "status": "proved",
   "theorems": [
    "Fasttld.Props.C32_asciiSet_exact"
   ],
   "note": ""
  },
  {
   "property": "C33",
   "status": "partial",
   "theorems": [
    "Fasttld.Props.C33_exact",
    "Fasttld.Props.C33_fastTrim_exact_partial",
    "Fasttld.Props.C33_counterexample"
   ],
   "note": "Proved for all sets of scalar values without U+FFFD, hence for every set the library uses. False with U+FFFD (C33_counterexample): invalid bytes decode to it and are trimmed. C33_exact: it holds for a set if and only if U+FFFD is not in it."
  },
  {
   "property": "C34",
   "status": "proved",
   "theorems": [
    "Fasttld.Props.C34_lastIndexAny_exact"
   ],
   "note": "Set members are Unicode scalar values (no surrogates)."
  },
  {
   "property": "C35",
   "status": "proved",
   "theorems": [
    "Fasttld.Props.C35_reverse_mirrors"
   ],
   "note": ""
  },
  {
   "property": "C36",
   "status": "proved",
   "theorems": [
    "Fasttld.Props.C36_new",
    "Fasttld.Props.C36_new_ends",
    "Fasttld.Props.C36_extractor_works"
   ],
   "note": ""
  },
  {
   "property": "C37",
   "status": "partial",
   "theorems": [
    "Fasttld.Props.C37_exact",
    "Fasttld.Props.C37_custom_partial",
    "Fasttld.Props.C37_counterexample"
   ],
   "note": "Proved for paths without white space around them. False otherwise (C37_counterexample): New checks the trimmed path but reads the untrimmed one. C37_exact: the exact condition, for all paths but the default one."
  },
  {
   "property": "C38",
   "status": "proved",
   "theorems": [
    "Fasttld.Props.C38_refuses",
    "Fasttld.Props.C38_refuses_world"
   ],
   "note": ""
  },
  {
   "property": "C39",
   "status": "proved",
   "theorems": [
    "Fasttld.Props.C39_empty_file",
    "Fasttld.Props.C39_failed_update"
   ],
   "note": ""
  },
  {
   "property": "C40",
   "status": "partial",
   "theorems": [
    "Fasttld.Props.C40_exact",
    "Fasttld.Props.C40_installs_prefix",
    "Fasttld.Props.C40_installs_partial",
    "Fasttld.Props.C40_counterexample"
   ],
   "note": "Proved when the body is at least as long as the old cache file and writing works; in general the body is a beginning of the file and the rules are those of the file. False for shorter bodies (C40_counterexample): the file is opened without truncation. C40_exact: without write errors the file is the list followed by the rest of the old file, so the claim about the file holds iff the old file was not longer."
  },
  {
   "property": "C41",
   "status": "proved",
   "theorems": [
    "Fasttld.Props.C41_attempts",
    "Fasttld.Props.C41_update"
   ],
   "note": ""
  },
  {
   "property": "C42",
   "status": "partial",
   "theorems": [
    "Fasttld.Props.C42_exact",
    "Fasttld.Props.C42_network_only_if_stale",
    "Fasttld.Props.C42_three_days_partial",
    "Fasttld.Props.C42_counterexample",
    "Fasttld.Props.C42_hours"
   ],
   "note": "Proved when the temporary folder and the cache file can be opened; 'only if' proved always. False otherwise (C42_counterexample): the built-in list is used without asking the network. C42_hours: the comparison of hours as float64 in the code is the comparison of nanoseconds in the model, for every way of rounding. C42_exact: the exact condition."
  },
  {
   "property": "C43",
   "status": "partial",
   "theorems": [
    "Fasttld.Props.C43_possible",
    "Fasttld.Props.C43_crash_leaves",
    "Fasttld.Props.C43_crash_safe_partial",
    "Fasttld.Props.C43_counterexample"
   ],
   "note": "Proved when the cache file was missing or a beginning of the one list offered; in general the file is the old one with beginnings of offered lists over it. False for a different old list (C43_counterexample): the mixture passes the marker check. C43_possible: each beginning of the offered list over the old file can be left behind."
  },
  {
   "property": "C44",
   "status": "proved",
   "theorems": [
    "Fasttld.Props.C44_invariants",
    "Fasttld.Props.C44_update_keeps"
   ],
   "note": ""
  },
  {
   "property": "C45",
   "status": "partial",
   "theorems": [
    "Fasttld.Props.C45_start",
    "Fasttld.Props.C45_always_one_list",
    "Fasttld.Props.C45_one_list_partial",
    "Fasttld.Props.C45_published_stays",
    "Fasttld.Props.C45_no_panic",
    "Fasttld.Props.C45_gets_done",
    "Fasttld.Props.C45_counterexample"
   ],
   "note": "Proved for any number of concurrent Extracts and Updates under sequential consistency: every Extract returns the result for the one list installed at a moment during the call. Extract and Update do not synchronise, so Go does not promise sequential consistency; with stale loads the claim is false (C45_counterexample). C69: it is enough that the pointer to the list synchronises."
  },
  {
   "property": "C46",
   "status": "partial",
   "theorems": [
    "Fasttld.Props.C46_chunks",
    "Fasttld.Props.C46_text",
    "Fasttld.Props.C46_lines_partial",
    "Fasttld.Props.C46_injective",
    "Fasttld.Props.C46_counterexample",
    "Fasttld.Props.C46_exact"
   ],
   "note": "Pieces, colours and text proved for all results; one line per component and injectivity for values without line breaks. Values with line breaks can make different results look the same (C46_counterexample). C46_exact: there are eleven line breaks if and only if no value contains one."
  },
  {
   "property": "C47",
   "status": "partial",
   "theorems": [
    "Fasttld.Props.C47_exact",
    "Fasttld.Props.C47_counterexample_exception",
    "Fasttld.Props.C47_counterexample",
    "Fasttld.Props.C47_case_partial"
   ],
   "note": "False without punycode conversion (C47_counterexample); proved with punycode conversion for IDNA libraries whose ASCII form does not depend on case. C47_exact: without punycode conversion, exactly which capital letters matter, for lists without capital letters and hosts without escapes; they can make the suffix shorter or longer (C47_counterexample_exception)."
  },
  {
   "property": "C48",
   "status": "proved",
   "theorems": [
    "Fasttld.Props.C48_character_check"
   ],
   "note": ""
  },
  {
   "property": "C49",
   "status": "proved",
   "theorems": [
    "Fasttld.Props.C49_cli",
    "Fasttld.Props.C49_cli_ends"
   ],
   "note": ""
  },
  {
   "property": "C50",
   "status": "proved",
   "theorems": [
    "Fasttld.Props.C50_back_quote",
    "Fasttld.Props.C50_generated",
    "Fasttld.Props.C50_generated_crlf"
   ],
   "note": ""
  },
  {
   "property": "C51",
   "status": "proved",
   "theorems": [
    "Fasttld.Props.C51_build",
    "Fasttld.Props.C51_build_ends",
    "Fasttld.Props.C51_extract",
    "Fasttld.Props.C51_memory"
   ],
   "note": ""
  },
  {
   "property": "C52",
   "status": "proved",
   "theorems": [
    "Fasttld.Props.C52_extract",
    "Fasttld.Props.C52_from_text",
    "Fasttld.Props.C52_one_result",
    "Fasttld.Props.C52_rules_as_set"
   ],
   "note": ""
  },
  {
   "property": "C53",
   "status": "proved",
   "theorems": [
    "Fasttld.Props.C53_local",
    "Fasttld.Props.C53_under",
    "Fasttld.Props.C53_conditions"
   ],
   "note": "C53_local is the locality claim; C53_under leaves out all other rules; C53_conditions gives C03, C21 and C22 with the condition on the last label only."
  },
  {
   "property": "C54",
   "status": "proved",
   "theorems": [
    "Fasttld.Props.C54_delimiters",
    "Fasttld.Props.C54_count",
    "Fasttld.Props.C54_lines",
    "Fasttld.Props.C54_regular",
    "Fasttld.Props.C54_public_suffix",
    "Fasttld.Props.C54_top",
    "Fasttld.Props.C54_no_top_star",
    "Fasttld.Props.C54_conditions",
    "Fasttld.Props.C54_za_gap",
    "Fasttld.Props.C54_za",
    "Fasttld.Props.C54_no",
    "Fasttld.Props.C54_assembled"
   ],
   "note": "Every line of the built-in list is part of the model; the facts about it are evaluated by the kernel, part by part. The conversion to ASCII is assumed to work label by label (ByLabel). C54_assembled covers hosts with and without punycode conversion; C54_conditions, without it, also gives the conclusions of C21 and C22."
  },
  {
   "property": "C55",
   "status": "proved",
   "theorems": [
    "Fasttld.Props.C55_sufficient",
    "Fasttld.Props.C55_exact",
    "Fasttld.Props.C55_witness"
   ],
   "note": "C55_exact is the equivalence, C55_sufficient needs no assumption on the IDNA library, C55_witness is the negative half. The names that show the failures use a label of letters a that is longer than all labels of the list."
  },
  {
   "property": "C56",
   "status": "proved",
   "theorems": [
    "Fasttld.Props.C56_exact",
    "Fasttld.Props.C56_dotted"
   ],
   "note": "C56_exact is for all URLs, C56_dotted for a name alone. The names are those of Spec/Mishandled.lean, in terms of the rules and of the algorithm only. Host names whose labels have escapes or characters that the check rejects are not covered; escapes in the suffix are treated in C17 and C52."
  },
  {
   "property": "C57",
   "status": "proved",
   "theorems": [
    "Fasttld.Props.C57_wellFormed",
    "Fasttld.Props.C57_mishandled",
    "Fasttld.Props.C57_public",
    "Fasttld.Props.C57_exact",
    "Fasttld.Props.C57_gaps",
    "Fasttld.Props.C57_shadows"
   ],
   "note": "C57_exact is C56 for the built-in list, C57_mishandled describes the names with and without the private section, C57_public simplifies it without, C57_gaps and C57_shadows show that no entry is superfluous (for za see the example). The conversion to ASCII is assumed to be ByLabel and Faithful; both can be met (apart_byLabel, apart_faithful)."
  },
  {
   "property": "C58",
   "status": "proved",
   "theorems": [
    "Fasttld.Props.C58_roundtrip",
    "Fasttld.Props.C58_apart",
    "Fasttld.Props.C58_spelling",
    "Fasttld.Props.C58_flag",
    "Fasttld.Props.C58_builtIn_rules",
    "Fasttld.Props.C58_conditions",
    "Fasttld.Props.C58_builtIn",
    "Fasttld.Props.C58_counterexample_exception",
    "Fasttld.Props.C58_counterexample_mixed"
   ],
   "note": "C58_spelling is for all lists, C58_flag for ConvertURLToPunyCode, C58_builtIn for the built-in list. RFC 3492 is written out in Spec/Punycode.lean, with unbounded integers (the RFC and the Go code report overflow), and C58_roundtrip proves that decoding undoes encoding. Both conditions are needed: C58_counterexample_exception (an exception that is not in ASCII), C58_counterexample_mixed (a host in which one label is in Unicode and another in Punycode)."
  },
  {
   "property": "C59",
   "status": "proved",
   "theorems": [
    "Fasttld.Props.C59_shared",
    "Fasttld.Props.C59_grows",
    "Fasttld.Props.C59_counterexample"
   ],
   "note": "C59_shared, C59_grows. C59_counterexample proves the last sentence: two processes that download different lists leave a mixture of both with all section markers. The default cache file must not have white space around its path (C37)."
  },
  {
   "property": "C60",
   "status": "proved",
   "theorems": [
    "Fasttld.Props.C60_update",
    "Fasttld.Props.C60_new"
   ],
   "note": "C60_new, C60_update: the outcome is the one in Spec/Behaviour.lean and that specification allows only one. Exact conditions for C37, C40, C42 follow (C37_exact, C40_exact, C42_exact). For changes during a call see C36-C41 (arbitrary answers) and C59."
  },
  {
   "property": "C61",
   "status": "proved",
   "theorems": [
    "Fasttld.Props.C61_label",
    "Fasttld.Props.C61_no_octet",
    "Fasttld.Props.C61_addresses",
    "Fasttld.Props.C61_addresses_written",
    "Fasttld.Props.C61_chars",
    "Fasttld.Props.C61_names",
    "Fasttld.Props.C61_za"
   ],
   "note": "C61_label is the general form, for any list without a wildcard at the top; that no rule ends in a digit, and that those ending in za are in ASCII, is checked line by line by the kernel; C61_addresses speaks of the host after punycode conversion, if that is on; C61_za shows that the last three statements fail under `za`."
  },
  {
   "property": "C62",
   "status": "proved",
   "theorems": [
    "Fasttld.Props.C62_only_reads",
    "Fasttld.Props.C62_bound",
    "Fasttld.Props.C62_depth",
    "Fasttld.Props.C62_builtin",
    "Fasttld.Props.C62_attained"
   ],
   "note": "One access is one map operation, one load of `end` or one load of f.tldTrie (Model/Memory.lean). C62_bound holds at every moment of every interleaving; C62_attained has a list and URLs with exactly 1 + 4*2 accesses; C62_builtin assumes a conversion to ASCII label by label, as C54 does. The work on the text of the URL is not counted."
  },
  {
   "property": "C63",
   "status": "proved",
   "theorems": [
    "Fasttld.Props.C63_scheme",
    "Fasttld.Props.C63_port",
    "Fasttld.Props.C63_host",
    "Fasttld.Props.C63_no_domain"
   ],
   "note": "From C52. The example has the one of the README and one URL for each kind of error, except a failed IDNA conversion."
  },
  {
   "property": "C64",
   "status": "proved",
   "theorems": [
    "Fasttld.Props.C64_longer",
    "Fasttld.Props.C64_harmony",
    "Fasttld.Props.C64_private",
    "Fasttld.Props.C64_addresses"
   ],
   "note": "C64_longer is the general form; C64_harmony (from a check of every private line by the kernel) and C64_private are for the built-in list, with a conversion to ASCII label by label as in C54. The examples have every outcome, and a pair of lists for each condition that shows that it is needed."
  },
  {
   "property": "C65",
   "status": "proved",
   "theorems": [
    "Fasttld.Props.C65_escape",
    "Fasttld.Props.C65_texts",
    "Fasttld.Props.C65_controls",
    "Fasttld.Props.C65_texts_idna",
    "Fasttld.Props.C65_output",
    "Fasttld.Props.C65_extract"
   ],
   "note": "strconv.Quote and url.EscapeError are modelled; the table of printable characters is a parameter. The text of an error of the IDNA library is arbitrary: C65_texts and C65_controls are about the other errors, C65_texts_idna also about these if their texts begin with 'idna: '."
  },
  {
   "property": "C66",
   "status": "proved",
   "theorems": [
    "Fasttld.Props.C66_gen",
    "Fasttld.Props.C66_incomplete",
    "Fasttld.Props.C66_any_status",
    "Fasttld.Props.C66_write_error"
   ],
   "note": "C66_any_status and C66_write_error are the last sentence. The writes of text/template are one per piece of the template. The printed time is assumed to have no back quote."
  },
  {
   "property": "C67",
   "status": "proved",
   "theorems": [
    "Fasttld.Props.C67_path",
    "Fasttld.Props.C67_add",
    "Fasttld.Props.C67_counterexample_open",
    "Fasttld.Props.C67_counterexample_star"
   ],
   "note": "C67_counterexample_open and C67_counterexample_star: the conditions on the rules that are added are needed."
  },
  {
   "property": "C68",
   "status": "proved",
   "theorems": [
    "Fasttld.Props.C68_readme",
    "Fasttld.Props.C68_com"
   ],
   "note": "The list as built in; the downloaded list is not part of the repository."
  },
  {
   "property": "C69",
   "status": "proved",
   "theorems": [
    "Fasttld.Props.C69_start",
    "Fasttld.Props.C69_one_list",
    "Fasttld.Props.C69_consistent",
    "Fasttld.Props.C69_atomic",
    "Fasttld.Props.C69_no_panic",
    "Fasttld.Props.C69_gets_done",
    "Fasttld.Props.C69_counterexample_stale"
   ],
   "note": "The synchronisation is an assumption about processor and compiler, or about code with an atomic pointer; the Go memory model does not promise it for the code as it is (C45). C69_counterexample_stale: without the latest pointer the list may be one that was replaced before the call."
  },
  {
   "property": "C70",
   "status": "proved",
   "theorems": [
    "Fasttld.Props.C70_same",
    "Fasttld.Props.C70_linear",
    "Fasttld.Props.C70_linear_punycode",
    "Fasttld.Props.C70_walk"
   ],
   "note": "The counting functions of Model/Work.lean are proved to return what the model returns (C70_same). What idna does, and how many places a lookup in a map tries, are not counted."
  },
  {
   "property": "C71",
   "status": "proved",
   "theorems": [
    "Fasttld.Props.C71_same",
    "Fasttld.Props.C71_linear",
    "Fasttld.Props.C71_nodes",
    "Fasttld.Props.C71_nodes_same",
    "Fasttld.Props.C71_memory"
   ],
   "note": "The counting functions of Model/LoadWork.lean are proved to build what the model builds (C71_same). append counts one for each element, its average. What idna and the file system do is not counted."
  },
  {
   "property": "C72",
   "status": "proved",
   "theorems": [
    "Fasttld.Props.C72_same",
    "Fasttld.Props.C72_update",
    "Fasttld.Props.C72_new",
    "Fasttld.Props.C72_complaints",
    "Fasttld.Props.C72_extract_same",
    "Fasttld.Props.C72_extract",
    "Fasttld.Props.C72_extract_logged",
    "Fasttld.Props.C72_label",
    "Fasttld.Props.C72_new_example",
    "Fasttld.Props.C72_update_example",
    "Fasttld.Props.C72_gone_example",
    "Fasttld.Props.C72_extract_example",
    "Fasttld.Props.C72_comment_example"
   ],
   "note": "Lines without the time that package log puts before them. C72_same: with logging, New and Update are the programs of Model/System.lean. What the programs under cmd and data/gen.go log is not included."
  },
  {
   "property": "C73",
   "status": "partial",
   "theorems": [
    "Fasttld.Props.C73_failures_partial",
    "Fasttld.Props.C73_lost",
    "Fasttld.Props.C73_update",
    "Fasttld.Props.C73_counterexample",
    "Fasttld.Props.C73_example",
    "Fasttld.Props.C73_logged_example"
   ],
   "note": "False of the code if the cache file cannot be opened for writing: New passes the wrong variable (fasttld.go:422) and logs only '<nil> Fallback to hardcoded Public Suffix List' (C73_lost, C73_counterexample). Proved for all other calls (C73_failures_partial), and for Update, which returns what it does not log (C73_update)."
  },
  {
   "property": "C74",
   "status": "proved",
   "theorems": [
    "Fasttld.Props.C74_closed",
    "Fasttld.Props.C74_example"
   ],
   "note": "Deferred calls are written out at every return. That Close itself may fail is not modelled; the code ignores it."
  },
  {
   "property": "C75",
   "status": "proved",
   "theorems": [
    "Fasttld.Props.C75_regName",
    "Fasttld.Props.C75_ipv6",
    "Fasttld.Props.C75_ipvFuture",
    "Fasttld.Props.C75_port",
    "Fasttld.Props.C75_empty_authority",
    "Fasttld.Props.C75_example"
   ],
   "note": "Spec/Uri.lean is the grammar of RFC 3986 (section 3 and appendix A) for URIs with an authority. The exception is real: for file:///etc.com/hosts Extract takes etc.com for the host (C75_empty_authority)."
  },
  {
   "property": "C76",
   "status": "proved",
   "theorems": [
    "Fasttld.Props.C76_same_host",
    "Fasttld.Props.C76_exception",
    "Fasttld.Props.C76_example"
   ],
   "note": "Spec/Browser.lean has the URL Standard's parser as far as the text of the host (not its validation, not relative URLs, not scheme file). The exception is real (C76_exception, C76_example). Nothing is claimed about other schemes, where the Standard does not treat a backslash as a delimiter."
  },
  {
   "property": "C77",
   "status": "proved",
   "theorems": [
    "Fasttld.Props.C77_text",
    "Fasttld.Props.C77_example"
   ],
   "note": "Not claimed of error texts: url.EscapeError has the three bytes after a percent sign, which may be part of a character."
  },
  {
   "property": "C78",
   "status": "proved",
   "theorems": [
    "Fasttld.Props.C78_text",
    "Fasttld.Props.C78_sets",
    "Fasttld.Props.C78_strings",
    "Fasttld.Props.C78_net",
    "Fasttld.Props.C78_extract",
    "Fasttld.Props.C78_width"
   ],
   "note": "The rules (Model/GoLang.lean) are those of the Go specification for the part of the language used; Model/Source.lean is the text as syntax, and C78_text proves that written out again it is the list of tokens which tools/gen_source.py read from the files. The sets of characters of the package are those that the text of makeASCIISet and makeRuneSet makes. The standard library, idna and intset are taken from the model. Without the bound on lengths it is false (example with an int of 4 bits)."
  },
  {
   "property": "C79",
   "status": "proved",
   "theorems": [
    "Fasttld.Props.C79_strings",
    "Fasttld.Props.C79_net",
    "Fasttld.Props.C79_fasttld",
    "Fasttld.Props.C79_others",
    "Fasttld.Props.C79_all"
   ],
   "note": "Trusted: the lexer (Model/GoLex.lean), and that Model/Files.lean is a copy of the files (tools/gen_source.py --check). fallback.go, the sixth file of the package, has the text of the list only (Model/Fallback.lean)."
  },
  {
   "property": "C80",
   "status": "proved",
   "theorems": [
    "Fasttld.Props.C80_line",
    "Fasttld.Props.C80_list",
    "Fasttld.Props.C80_valid"
   ],
   "note": "The rules and the trusted parts are those of C78, C79 (C79_others has the tokens of psl.go). A slice of strings is a value here: append gives a new one; the code never has two slices of one array that are both appended to."
  },
  {
   "property": "C81",
   "status": "proved",
   "theorems": [
    "Fasttld.Props.C81_reverse",
    "Fasttld.Props.C81_nestedDict",
    "Fasttld.Props.C81_accesses",
    "Fasttld.Props.C81_error",
    "Fasttld.Props.C81_build"
   ],
   "note": "The rules for pointers, slices that share an array, composite literals and Scan are in Model/GoMem.lean; hashmap.Map is a map from keys to pointers (Get, Set, Scan), as in C51. Scan is checked not to assign a variable of the function around it (Stmt.keeps). Length + 1 of a suffix must be less than 2^(w-1), the largest int."
  },
  {
   "property": "C82",
   "status": "proved",
   "theorems": [
    "Fasttld.Props.C82_accesses",
    "Fasttld.Props.C82_loads_once",
    "Fasttld.Props.C82_extract",
    "Fasttld.Props.C82_jobs",
    "Fasttld.Props.C82_goroutines",
    "Fasttld.Props.C82_start"
   ],
   "note": "The rules and the trusted parts are those of C78, C79, C81. Of Update only the call of trieConstruct is run as text; what follows it, psl.go:206-211, is `publish` (Spec/TextThreads.lean). Interleavings are of whole accesses, sequentially consistent: Go does not promise that for this code (C45_counterexample). Every Update has a list that can be read (C81_error has the other case: nothing is published). Names shorter than 2^(w-1) - 4 bytes."
  },
  {
   "property": "C83",
   "status": "proved",
   "theorems": [
    "Fasttld.Props.C83_new",
    "Fasttld.Props.C83_update",
    "Fasttld.Props.C83_new_log",
    "Fasttld.Props.C83_checkCacheFile",
    "Fasttld.Props.C83_mirrors"
   ],
   "note": "The rules for structures, defer, redeclaration, durations and the calls of other packages are in Model/GoSys.lean; the calls are those of Model/System.lean with arbitrary answers. Deferred calls run when a function returns; after a panic they would not be seen, but there is none. Length + 1 of a rule must be less than 2^(w-1). Constants of package os are those of Linux. The structures FastTLD belong to one goroutine while New and Update run; C82 has the goroutines."
  },
  {
   "property": "C84",
   "status": "proved",
   "theorems": [
    "Fasttld.Props.C84_extract",
    "Fasttld.Props.C84_extract_log",
    "Fasttld.Props.C84_end_to_end"
   ],
   "note": "The rules are those of C83. The structure belongs to one goroutine; C82 has the goroutines. The URL, and the ASCII forms that the IDNA library gives for names not longer than it, must be at least 4 bytes shorter than 2^(w-1); rules as in C83. A run of Extract exists if there are addresses left in memory."
  },
  {
   "property": "C85",
   "status": "proved",
   "theorems": [
    "Fasttld.Props.C85_printRes"
   ],
   "note": "The rules are those of C83, with switch and with Print and Println of github.com/fatih/color, which are events (Model/GoSys.lean); how attributes are shown on a terminal is left out. HostType has only its four named values, as everywhere in the model."
  },
  {
   "property": "C86",
   "status": "proved",
   "theorems": [
    "Fasttld.Props.C86_same",
    "Fasttld.Props.C86_command",
    "Fasttld.Props.C86_ends",
    "Fasttld.Props.C86_text"
   ],
   "note": "The rules are those of C83 to C85. Flags are parsed by cobra, and arguments counted (ExactArgs(1), cmd/fasttld/extract.go:24): left out, flags and argument are arbitrary. log.Fatal has no meaning in the rules, a run would be stuck. The bounds on the lengths of the URL and of the rules are those of C84. A run exists for all answers and texts if there are addresses left in memory (C86_ends). Of the file, lines 11 and 25-36 are compared with the tokens (C86_text)."
  },
  {
   "property": "C87",
   "status": "proved",
   "theorems": [
    "Fasttld.Props.C87_history",
    "Fasttld.Props.C87_next",
    "Fasttld.Props.C87_ends"
   ],
   "note": "The rules are those of C83 and C84. The calls come one after the other (two goroutines with one extractor: C69, C82). The caller does not write to the fields of an extractor. The specification is Spec/Client.lean: a list of extractors as their user sees them, and what each call does to it. Calls in an order in which they can be made do run to their end, for all answers and texts, if there are addresses left in memory (C87_ends). The bounds on the lengths of the URLs and of the rules are those of C84."
  },
  {
   "property": "C88",
   "status": "proved",
   "theorems": [
    "Fasttld.Props.C88_shared",
    "Fasttld.Props.C88_grows",
    "Fasttld.Props.C88_goes_on",
    "Fasttld.Props.C88_schedules",
    "Fasttld.Props.C88_crash_leaves",
    "Fasttld.Props.C88_crash_safe",
    "Fasttld.Props.C88_crash_possible",
    "Fasttld.Props.C88_counterexample",
    "Fasttld.Props.C88_crash_counterexample"
   ],
   "note": "The processes of Model/Shared.lean (C59) and the crashes of C43, with the text of C83 as their program (Model/GoShared.lean). Each process has a memory of its own with addresses left, and starts with New, or with Update of a structure that is an extractor. A file that is read has rules shorter than the largest int. The conditions on the world are those of C59 and C43 (names stay where they are, nobody else writes the default cache file, two paths for one place are treated alike); they are part of the statement, and C88_counterexample and C88_crash_counterexample show what happens without the condition of one list."
  },
  {
   "property": "C89",
   "status": "proved",
   "theorems": [
    "Fasttld.Props.C89_imports",
    "Fasttld.Props.C89_command",
    "Fasttld.Props.C89_locals",
    "Fasttld.Props.C89_all",
    "Fasttld.Props.C89_package"
   ],
   "note": "The text is that of C79, byte by byte, the functions are those that C79 shows to be the parse of it (C89_all: there are no others). The names of the packages by their paths are a table (Spec/Names.lean): the files of other modules are not part of the repository. Of a group in parentheses at package level the first name counts. One local name, publicSuffixListSources in update, is that of a variable of the package; the check scoped (Model/Source.lean) shows that where a variable of the package is read, no inner declaration has its name."
  },
  {
   "property": "C90",
   "status": "proved",
   "theorems": [
    "Fasttld.Props.C90_text",
    "Fasttld.Props.C90_demo",
    "Fasttld.Props.C90_readme",
    "Fasttld.Props.C90_ends"
   ],
   "note": "The statements of main are forms of their own (Model/GoDemo.lean), each with its tokens and a direct meaning; C90_text shows that the tokens of the file are those of these statements, between package, imports and braces. What they call, New, Extract, Update and PrintRes, is run by the text (C83 to C85, C87). log.Fatal has no meaning, and a run that reached it would not end as C90_demo shows it does. As in C84, lists and URLs are a few bytes shorter than the largest int. In C90_readme that no list was read is that no reading of a file gave contents."
  }
 ]
}
