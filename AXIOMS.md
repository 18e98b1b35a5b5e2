# Axioms per theorem

Output of `#print axioms` for every theorem in MANIFEST.json, written by tools/gen_axioms.py.

| claim | theorem | axioms |
|---|---|---|
| C01 | Fasttld.Props.C01_extract_returns | propext, Classical.choice, Quot.sound |
| C02 | Fasttld.Props.C02_url_reassembly_ignoring | propext, Classical.choice, Quot.sound |
| C02 | Fasttld.Props.C02_url_reassembly | propext, Classical.choice, Quot.sound |
| C03 | Fasttld.Props.C03_reassembly_partial | propext, Classical.choice, Quot.sound |
| C03 | Fasttld.Props.C03_reassembly_puny_partial | propext, Classical.choice, Quot.sound |
| C03 | Fasttld.Props.C03_counterexample | propext, Quot.sound |
| C03 | Fasttld.Props.C03_anchored | propext, Classical.choice, Quot.sound |
| C03 | Fasttld.Props.C03_exact | propext, Classical.choice, Quot.sound |
| C04 | Fasttld.Props.C04_separator_only | propext, Quot.sound |
| C04 | Fasttld.Props.C04_registeredDomain | propext, Classical.choice, Quot.sound |
| C05 | Fasttld.Props.C05_success | propext, Classical.choice, Quot.sound |
| C05 | Fasttld.Props.C05_failure | propext, Classical.choice, Quot.sound |
| C05 | Fasttld.Props.C05_ipv6_port_example | propext, Quot.sound |
| C06 | Fasttld.Props.C06_ignoreSubDomains | propext, Classical.choice, Quot.sound |
| C07 | Fasttld.Props.C07_whitespace_irrelevant | propext, Classical.choice, Quot.sound |
| C08 | Fasttld.Props.C08_scheme_exact | propext, Classical.choice, Quot.sound |
| C09 | Fasttld.Props.C09_counterexample | propext, Quot.sound |
| C09 | Fasttld.Props.C09_shape_partial | propext, Classical.choice, Quot.sound |
| C09 | Fasttld.Props.C09_exact | propext, Classical.choice, Quot.sound |
| C10 | Fasttld.Props.C10_userinfo_exact | propext, Classical.choice, Quot.sound |
| C11 | Fasttld.Props.C11_negative_zero_accepted | propext, Quot.sound |
| C11 | Fasttld.Props.C11_exact | propext, Classical.choice, Quot.sound |
| C11 | Fasttld.Props.C11_port_range_partial | propext, Classical.choice, Quot.sound |
| C11 | Fasttld.Props.C11_bad_port_rejected | propext, Classical.choice, Quot.sound |
| C11 | Fasttld.Props.C11_sign_accepted | propext, Quot.sound |
| C12 | Fasttld.Props.C12_path_exact | propext, Classical.choice, Quot.sound |
| C13 | Fasttld.Props.C13_isIPv6_exact_partial | propext, Classical.choice, Quot.sound |
| C13 | Fasttld.Props.C13_wider_than_rfc4291 | propext, Quot.sound |
| C13 | Fasttld.Props.C13_exact | propext, Classical.choice, Quot.sound |
| C14 | Fasttld.Props.C14_isIPv4_exact | propext, Classical.choice, Quot.sound |
| C15 | Fasttld.Props.C15_ipv4_partial | propext, Classical.choice, Quot.sound |
| C15 | Fasttld.Props.C15_only_ipv4 | propext, Classical.choice, Quot.sound |
| C15 | Fasttld.Props.C15_counterexample | propext, Quot.sound |
| C15 | Fasttld.Props.C15_noOctetTop | propext, Classical.choice, Quot.sound |
| C15 | Fasttld.Props.C15_exact | propext, Classical.choice, Quot.sound |
| C16 | Fasttld.Props.C16_brackets | propext, Classical.choice, Quot.sound |
| C16 | Fasttld.Props.C16_ipv6_only_from_brackets | propext, Classical.choice, Quot.sound |
| C17 | Fasttld.Props.C17_counterexample_deep | propext, Classical.choice, Quot.sound |
| C17 | Fasttld.Props.C17_counterexample_exception | propext, Classical.choice, Quot.sound |
| C17 | Fasttld.Props.C17_algorithm | propext, Classical.choice, Quot.sound |
| C17 | Fasttld.Props.C17_tame_partial | propext, Classical.choice, Quot.sound |
| C17 | Fasttld.Props.C17_public_suffix_partial | propext, Classical.choice, Quot.sound |
| C17 | Fasttld.Props.C17_counterexample_gap | propext, Classical.choice, Quot.sound |
| C17 | Fasttld.Props.C17_counterexample_top | propext, Classical.choice, Quot.sound |
| C17 | Fasttld.Props.C17_counterexample_shadow | propext, Classical.choice, Quot.sound |
| C17 | Fasttld.Props.C17_counterexample_bare | propext, Classical.choice, Quot.sound |
| C18 | Fasttld.Props.C18_same_rules | propext, Classical.choice, Quot.sound |
| C19 | Fasttld.Props.C19_index | propext, Classical.choice, Quot.sound |
| C19 | Fasttld.Props.C19_labels | propext, Quot.sound |
| C20 | Fasttld.Props.C20_domain_single_label | propext, Classical.choice, Quot.sound |
| C21 | Fasttld.Props.C21_counterexample_others | propext, Quot.sound |
| C21 | Fasttld.Props.C21_no_invalid_chars_partial | propext, Classical.choice, Quot.sound |
| C21 | Fasttld.Props.C21_counterexample | propext, Quot.sound |
| C21 | Fasttld.Props.C21_counterexample_unchecked | propext, Quot.sound |
| C21 | Fasttld.Props.C21_wellFormed | propext, Classical.choice, Quot.sound |
| C21 | Fasttld.Props.C21_exact | propext, Classical.choice, Quot.sound |
| C22 | Fasttld.Props.C22_no_empty_labels_partial | propext, Classical.choice, Quot.sound |
| C22 | Fasttld.Props.C22_counterexample | propext, Quot.sound |
| C22 | Fasttld.Props.C22_topRules | propext, Classical.choice, Quot.sound |
| C22 | Fasttld.Props.C22_exact | propext, Classical.choice, Quot.sound |
| C23 | Fasttld.Props.C23_separators_partial | propext, Classical.choice, Quot.sound |
| C23 | Fasttld.Props.C23_counterexample | propext, Classical.choice, Quot.sound |
| C23 | Fasttld.Props.C23_exact | propext, Classical.choice, Quot.sound |
| C23 | Fasttld.Props.C23_all_spellings | propext, Classical.choice, Quot.sound |
| C24 | Fasttld.Props.C24_decoded | propext, Classical.choice, Quot.sound |
| C24 | Fasttld.Props.C24_malformed | propext, Classical.choice, Quot.sound |
| C24 | Fasttld.Props.C24_malformed_only | propext, Classical.choice, Quot.sound |
| C24 | Fasttld.Props.C24_decoded_partial | propext, Classical.choice, Quot.sound |
| C24 | Fasttld.Props.C24_counterexample | propext, Quot.sound |
| C25 | Fasttld.Props.C25_unknown_tld | propext, Classical.choice, Quot.sound |
| C26 | Fasttld.Props.C26_exact | propext, Classical.choice, Quot.sound |
| C26 | Fasttld.Props.C26_names | propext, Classical.choice, Quot.sound |
| C26 | Fasttld.Props.C26_subdomain_partial | propext, Classical.choice, Quot.sound |
| C26 | Fasttld.Props.C26_counterexample | propext, Quot.sound |
| C27 | Fasttld.Props.C27_registered_partial | propext, Classical.choice, Quot.sound |
| C27 | Fasttld.Props.C27_self_partial | propext, Classical.choice, Quot.sound |
| C27 | Fasttld.Props.C27_counterexample_top | propext, Quot.sound |
| C27 | Fasttld.Props.C27_counterexample_dash | propext, Quot.sound |
| C27 | Fasttld.Props.C27_counterexample_ipv4 | propext, Quot.sound |
| C27 | Fasttld.Props.C27_exact | propext, Classical.choice, Quot.sound |
| C28 | Fasttld.Props.C28_exact | propext, Classical.choice, Quot.sound |
| C28 | Fasttld.Props.C28_failure | propext, Classical.choice, Quot.sound |
| C28 | Fasttld.Props.C28_literal_failure | propext, Classical.choice, Quot.sound |
| C28 | Fasttld.Props.C28_host_independent_partial | propext, Classical.choice, Quot.sound |
| C28 | Fasttld.Props.C28_counterexample | propext, Quot.sound |
| C28 | Fasttld.Props.C28_literal_independent_partial | propext, Classical.choice, Quot.sound |
| C29 | Fasttld.Props.C29_parse_exact | propext, Classical.choice, Quot.sound |
| C29 | Fasttld.Props.C29_format | propext, Classical.choice, Quot.sound |
| C30 | Fasttld.Props.C30_irrelevant_lines_partial | propext, Classical.choice, Quot.sound |
| C30 | Fasttld.Props.C30_insert_partial | propext, Classical.choice, Quot.sound |
| C30 | Fasttld.Props.C30_white_space | propext, Classical.choice, Quot.sound |
| C30 | Fasttld.Props.C30_crlf | propext, Classical.choice, Quot.sound |
| C30 | Fasttld.Props.C30_marker_matters | propext |
| C30 | Fasttld.Props.C30_exact | propext, Classical.choice, Quot.sound |
| C31 | Fasttld.Props.C31_markers_in_line | propext |
| C31 | Fasttld.Props.C31_private_hidden | propext, Classical.choice, Quot.sound |
| C31 | Fasttld.Props.C31_private_hidden_bytes | propext, Classical.choice, Quot.sound |
| C32 | Fasttld.Props.C32_asciiSet_exact | propext, Classical.choice, Quot.sound |
| C33 | Fasttld.Props.C33_exact | propext, Classical.choice, Quot.sound |
| C33 | Fasttld.Props.C33_fastTrim_exact_partial | propext, Classical.choice, Quot.sound |
| C33 | Fasttld.Props.C33_counterexample | propext, Quot.sound |
| C34 | Fasttld.Props.C34_lastIndexAny_exact | propext, Classical.choice, Quot.sound |
| C35 | Fasttld.Props.C35_reverse_mirrors | propext, Classical.choice, Quot.sound |
| C36 | Fasttld.Props.C36_new | propext, Quot.sound |
| C36 | Fasttld.Props.C36_new_ends | propext, Quot.sound |
| C36 | Fasttld.Props.C36_extractor_works | propext, Classical.choice, Quot.sound |
| C37 | Fasttld.Props.C37_exact | propext, Classical.choice, Quot.sound |
| C37 | Fasttld.Props.C37_custom_partial | propext, Classical.choice, Quot.sound |
| C37 | Fasttld.Props.C37_counterexample | propext, Quot.sound |
| C38 | Fasttld.Props.C38_refuses | propext, Classical.choice, Quot.sound |
| C38 | Fasttld.Props.C38_refuses_world | propext, Quot.sound |
| C39 | Fasttld.Props.C39_empty_file | propext |
| C39 | Fasttld.Props.C39_failed_update | propext, Quot.sound |
| C40 | Fasttld.Props.C40_exact | propext, Classical.choice, Quot.sound |
| C40 | Fasttld.Props.C40_installs_prefix | propext, Quot.sound |
| C40 | Fasttld.Props.C40_installs_partial | propext, Quot.sound |
| C40 | Fasttld.Props.C40_counterexample | propext, Quot.sound |
| C41 | Fasttld.Props.C41_attempts | propext, Classical.choice, Quot.sound |
| C41 | Fasttld.Props.C41_update | propext, Classical.choice, Quot.sound |
| C42 | Fasttld.Props.C42_exact | propext, Classical.choice, Quot.sound |
| C42 | Fasttld.Props.C42_network_only_if_stale | propext, Classical.choice, Quot.sound |
| C42 | Fasttld.Props.C42_three_days_partial | propext, Classical.choice, Quot.sound |
| C42 | Fasttld.Props.C42_counterexample | propext |
| C42 | Fasttld.Props.C42_hours | propext, Classical.choice, Quot.sound |
| C43 | Fasttld.Props.C43_possible | propext, Quot.sound |
| C43 | Fasttld.Props.C43_crash_leaves | propext, Quot.sound |
| C43 | Fasttld.Props.C43_crash_safe_partial | propext, Classical.choice, Quot.sound |
| C43 | Fasttld.Props.C43_counterexample | propext, Quot.sound |
| C44 | Fasttld.Props.C44_invariants | propext, Quot.sound |
| C44 | Fasttld.Props.C44_update_keeps | propext, Quot.sound |
| C45 | Fasttld.Props.C45_start | propext, Classical.choice, Quot.sound |
| C45 | Fasttld.Props.C45_always_one_list | propext, Classical.choice, Quot.sound |
| C45 | Fasttld.Props.C45_one_list_partial | propext, Classical.choice, Quot.sound |
| C45 | Fasttld.Props.C45_published_stays | propext, Classical.choice, Quot.sound |
| C45 | Fasttld.Props.C45_no_panic | propext, Classical.choice, Quot.sound |
| C45 | Fasttld.Props.C45_gets_done | propext, Classical.choice, Quot.sound |
| C45 | Fasttld.Props.C45_counterexample | propext, Quot.sound |
| C46 | Fasttld.Props.C46_chunks | propext |
| C46 | Fasttld.Props.C46_text | propext |
| C46 | Fasttld.Props.C46_lines_partial | propext, Quot.sound |
| C46 | Fasttld.Props.C46_injective | propext, Quot.sound |
| C46 | Fasttld.Props.C46_counterexample | none |
| C46 | Fasttld.Props.C46_exact | propext, Classical.choice, Quot.sound |
| C47 | Fasttld.Props.C47_exact | propext, Classical.choice, Quot.sound |
| C47 | Fasttld.Props.C47_counterexample_exception | propext, Quot.sound |
| C47 | Fasttld.Props.C47_counterexample | propext, Quot.sound |
| C47 | Fasttld.Props.C47_case_partial | propext, Classical.choice, Quot.sound |
| C48 | Fasttld.Props.C48_character_check | propext, Classical.choice, Quot.sound |
| C49 | Fasttld.Props.C49_cli | propext, Classical.choice, Quot.sound |
| C49 | Fasttld.Props.C49_cli_ends | propext, Classical.choice, Quot.sound |
| C50 | Fasttld.Props.C50_back_quote | propext |
| C50 | Fasttld.Props.C50_generated | propext, Quot.sound |
| C50 | Fasttld.Props.C50_generated_crlf | propext, Classical.choice, Quot.sound |
| C51 | Fasttld.Props.C51_build | propext, Classical.choice, Quot.sound |
| C51 | Fasttld.Props.C51_build_ends | propext, Classical.choice, Quot.sound |
| C51 | Fasttld.Props.C51_extract | propext, Classical.choice, Quot.sound |
| C51 | Fasttld.Props.C51_memory | propext, Classical.choice, Quot.sound |
| C52 | Fasttld.Props.C52_extract | propext, Classical.choice, Quot.sound |
| C52 | Fasttld.Props.C52_from_text | propext, Classical.choice, Quot.sound |
| C52 | Fasttld.Props.C52_one_result | propext, Classical.choice, Quot.sound |
| C52 | Fasttld.Props.C52_rules_as_set | propext, Classical.choice, Quot.sound |
| C53 | Fasttld.Props.C53_local | propext, Classical.choice, Quot.sound |
| C53 | Fasttld.Props.C53_under | propext, Classical.choice, Quot.sound |
| C53 | Fasttld.Props.C53_conditions | propext, Classical.choice, Quot.sound |
| C54 | Fasttld.Props.C54_delimiters | propext, Quot.sound |
| C54 | Fasttld.Props.C54_count | propext, Classical.choice, Quot.sound |
| C54 | Fasttld.Props.C54_lines | propext, Classical.choice, Quot.sound |
| C54 | Fasttld.Props.C54_regular | propext, Classical.choice, Quot.sound |
| C54 | Fasttld.Props.C54_public_suffix | propext, Classical.choice, Quot.sound |
| C54 | Fasttld.Props.C54_top | propext, Classical.choice, Quot.sound |
| C54 | Fasttld.Props.C54_no_top_star | propext, Classical.choice, Quot.sound |
| C54 | Fasttld.Props.C54_conditions | propext, Classical.choice, Quot.sound |
| C54 | Fasttld.Props.C54_za_gap | propext, Classical.choice, Quot.sound |
| C54 | Fasttld.Props.C54_za | propext, Classical.choice, Quot.sound |
| C54 | Fasttld.Props.C54_no | propext, Classical.choice, Quot.sound |
| C54 | Fasttld.Props.C54_assembled | propext, Classical.choice, Quot.sound |
| C55 | Fasttld.Props.C55_sufficient | propext, Classical.choice, Quot.sound |
| C55 | Fasttld.Props.C55_exact | propext, Classical.choice, Quot.sound |
| C55 | Fasttld.Props.C55_witness | propext, Classical.choice, Quot.sound |
| C56 | Fasttld.Props.C56_exact | propext, Classical.choice, Quot.sound |
| C56 | Fasttld.Props.C56_dotted | propext, Classical.choice, Quot.sound |
| C57 | Fasttld.Props.C57_wellFormed | propext, Classical.choice, Quot.sound |
| C57 | Fasttld.Props.C57_mishandled | propext, Classical.choice, Quot.sound |
| C57 | Fasttld.Props.C57_public | propext, Classical.choice, Quot.sound |
| C57 | Fasttld.Props.C57_exact | propext, Classical.choice, Quot.sound |
| C57 | Fasttld.Props.C57_gaps | propext, Classical.choice, Quot.sound |
| C57 | Fasttld.Props.C57_shadows | propext, Classical.choice, Quot.sound |
| C58 | Fasttld.Props.C58_roundtrip | propext, Classical.choice, Quot.sound |
| C58 | Fasttld.Props.C58_apart | propext, Classical.choice, Quot.sound |
| C58 | Fasttld.Props.C58_spelling | propext, Classical.choice, Quot.sound |
| C58 | Fasttld.Props.C58_flag | propext, Classical.choice, Quot.sound |
| C58 | Fasttld.Props.C58_builtIn_rules | propext, Classical.choice, Quot.sound |
| C58 | Fasttld.Props.C58_conditions | propext, Classical.choice, Quot.sound |
| C58 | Fasttld.Props.C58_builtIn | propext, Classical.choice, Quot.sound |
| C58 | Fasttld.Props.C58_counterexample_exception | propext, Quot.sound |
| C58 | Fasttld.Props.C58_counterexample_mixed | propext, Quot.sound |
| C59 | Fasttld.Props.C59_shared | propext, Classical.choice, Quot.sound |
| C59 | Fasttld.Props.C59_grows | propext, Classical.choice, Quot.sound |
| C59 | Fasttld.Props.C59_counterexample | propext, Quot.sound |
| C60 | Fasttld.Props.C60_update | propext, Classical.choice, Quot.sound |
| C60 | Fasttld.Props.C60_new | propext, Classical.choice, Quot.sound |
| C61 | Fasttld.Props.C61_label | propext, Classical.choice, Quot.sound |
| C61 | Fasttld.Props.C61_no_octet | propext, Classical.choice, Quot.sound |
| C61 | Fasttld.Props.C61_addresses | propext, Classical.choice, Quot.sound |
| C61 | Fasttld.Props.C61_addresses_written | propext, Classical.choice, Quot.sound |
| C61 | Fasttld.Props.C61_chars | propext, Classical.choice, Quot.sound |
| C61 | Fasttld.Props.C61_names | propext, Classical.choice, Quot.sound |
| C61 | Fasttld.Props.C61_za | propext, Classical.choice, Quot.sound |
| C62 | Fasttld.Props.C62_only_reads | propext, Quot.sound |
| C62 | Fasttld.Props.C62_bound | propext, Classical.choice, Quot.sound |
| C62 | Fasttld.Props.C62_depth | propext, Classical.choice, Quot.sound |
| C62 | Fasttld.Props.C62_builtin | propext, Classical.choice, Quot.sound |
| C62 | Fasttld.Props.C62_attained | propext, Quot.sound |
| C63 | Fasttld.Props.C63_scheme | propext, Classical.choice, Quot.sound |
| C63 | Fasttld.Props.C63_port | propext, Classical.choice, Quot.sound |
| C63 | Fasttld.Props.C63_host | propext, Classical.choice, Quot.sound |
| C63 | Fasttld.Props.C63_no_domain | propext, Classical.choice, Quot.sound |
| C64 | Fasttld.Props.C64_longer | propext, Classical.choice, Quot.sound |
| C64 | Fasttld.Props.C64_harmony | propext, Classical.choice, Quot.sound |
| C64 | Fasttld.Props.C64_private | propext, Classical.choice, Quot.sound |
| C64 | Fasttld.Props.C64_addresses | propext, Classical.choice, Quot.sound |
| C65 | Fasttld.Props.C65_escape | propext, Classical.choice, Quot.sound |
| C65 | Fasttld.Props.C65_texts | propext, Classical.choice, Quot.sound |
| C65 | Fasttld.Props.C65_controls | propext, Classical.choice, Quot.sound |
| C65 | Fasttld.Props.C65_texts_idna | propext, Classical.choice, Quot.sound |
| C65 | Fasttld.Props.C65_output | propext, Classical.choice, Quot.sound |
| C65 | Fasttld.Props.C65_extract | propext, Classical.choice, Quot.sound |
| C66 | Fasttld.Props.C66_gen | propext, Quot.sound |
| C66 | Fasttld.Props.C66_incomplete | propext, Classical.choice, Quot.sound |
| C66 | Fasttld.Props.C66_any_status | propext, Quot.sound |
| C66 | Fasttld.Props.C66_write_error | propext, Classical.choice, Quot.sound |
| C67 | Fasttld.Props.C67_path | propext, Classical.choice, Quot.sound |
| C67 | Fasttld.Props.C67_add | propext, Classical.choice, Quot.sound |
| C67 | Fasttld.Props.C67_counterexample_open | propext, Quot.sound |
| C67 | Fasttld.Props.C67_counterexample_star | propext, Quot.sound |
| C68 | Fasttld.Props.C68_readme | propext, Classical.choice, Quot.sound |
| C68 | Fasttld.Props.C68_com | propext, Classical.choice, Quot.sound |
| C69 | Fasttld.Props.C69_start | propext, Classical.choice, Quot.sound |
| C69 | Fasttld.Props.C69_one_list | propext, Classical.choice, Quot.sound |
| C69 | Fasttld.Props.C69_consistent | propext, Classical.choice, Quot.sound |
| C69 | Fasttld.Props.C69_atomic | propext, Classical.choice, Quot.sound |
| C69 | Fasttld.Props.C69_no_panic | propext, Classical.choice, Quot.sound |
| C69 | Fasttld.Props.C69_gets_done | propext, Classical.choice, Quot.sound |
| C69 | Fasttld.Props.C69_counterexample_stale | propext, Quot.sound |
| C70 | Fasttld.Props.C70_same | propext, Quot.sound |
| C70 | Fasttld.Props.C70_linear | propext, Classical.choice, Quot.sound |
| C70 | Fasttld.Props.C70_linear_punycode | propext, Classical.choice, Quot.sound |
| C70 | Fasttld.Props.C70_walk | propext, Classical.choice, Quot.sound |
| C71 | Fasttld.Props.C71_same | propext |
| C71 | Fasttld.Props.C71_linear | propext, Classical.choice, Quot.sound |
| C71 | Fasttld.Props.C71_nodes | propext, Classical.choice, Quot.sound |
| C71 | Fasttld.Props.C71_nodes_same | propext, Classical.choice, Quot.sound |
| C71 | Fasttld.Props.C71_memory | propext, Classical.choice, Quot.sound |
| C72 | Fasttld.Props.C72_same | propext, Classical.choice, Quot.sound |
| C72 | Fasttld.Props.C72_update | propext, Classical.choice, Quot.sound |
| C72 | Fasttld.Props.C72_new | propext, Classical.choice, Quot.sound |
| C72 | Fasttld.Props.C72_complaints | propext, Classical.choice, Quot.sound |
| C72 | Fasttld.Props.C72_extract_same | propext, Quot.sound |
| C72 | Fasttld.Props.C72_extract | propext, Quot.sound |
| C72 | Fasttld.Props.C72_extract_logged | propext, Quot.sound |
| C72 | Fasttld.Props.C72_label | propext |
| C72 | Fasttld.Props.C72_new_example | propext |
| C72 | Fasttld.Props.C72_update_example | propext |
| C72 | Fasttld.Props.C72_gone_example | propext |
| C72 | Fasttld.Props.C72_extract_example | propext, Quot.sound |
| C72 | Fasttld.Props.C72_comment_example | propext |
| C73 | Fasttld.Props.C73_failures_partial | propext, Classical.choice, Quot.sound |
| C73 | Fasttld.Props.C73_lost | propext, Classical.choice, Quot.sound |
| C73 | Fasttld.Props.C73_update | propext, Classical.choice, Quot.sound |
| C73 | Fasttld.Props.C73_counterexample | propext, Quot.sound |
| C73 | Fasttld.Props.C73_example | propext |
| C73 | Fasttld.Props.C73_logged_example | propext |
| C74 | Fasttld.Props.C74_closed | propext, Classical.choice, Quot.sound |
| C74 | Fasttld.Props.C74_example | propext |
| C75 | Fasttld.Props.C75_regName | propext, Classical.choice, Quot.sound |
| C75 | Fasttld.Props.C75_ipv6 | propext, Classical.choice, Quot.sound |
| C75 | Fasttld.Props.C75_ipvFuture | propext, Classical.choice, Quot.sound |
| C75 | Fasttld.Props.C75_port | propext, Classical.choice, Quot.sound |
| C75 | Fasttld.Props.C75_empty_authority | propext, Quot.sound |
| C75 | Fasttld.Props.C75_example | propext, Quot.sound |
| C76 | Fasttld.Props.C76_same_host | propext, Classical.choice, Quot.sound |
| C76 | Fasttld.Props.C76_exception | propext, Quot.sound |
| C76 | Fasttld.Props.C76_example | propext, Quot.sound |
| C77 | Fasttld.Props.C77_text | propext, Classical.choice, Quot.sound |
| C77 | Fasttld.Props.C77_example | propext, Classical.choice, Quot.sound |
| C78 | Fasttld.Props.C78_text | propext |
| C78 | Fasttld.Props.C78_sets | propext, Classical.choice, Quot.sound |
| C78 | Fasttld.Props.C78_strings | propext, Classical.choice, Quot.sound |
| C78 | Fasttld.Props.C78_net | propext, Classical.choice, Quot.sound |
| C78 | Fasttld.Props.C78_extract | propext, Classical.choice, Quot.sound |
| C78 | Fasttld.Props.C78_width | propext, Classical.choice, Quot.sound |
| C79 | Fasttld.Props.C79_strings | propext, Classical.choice, Quot.sound |
| C79 | Fasttld.Props.C79_net | propext, Classical.choice, Quot.sound |
| C79 | Fasttld.Props.C79_fasttld | propext, Classical.choice, Quot.sound |
| C79 | Fasttld.Props.C79_others | propext, Classical.choice, Quot.sound |
| C79 | Fasttld.Props.C79_all | propext |
| C80 | Fasttld.Props.C80_line | propext, Classical.choice, Quot.sound |
| C80 | Fasttld.Props.C80_list | propext, Classical.choice, Quot.sound |
| C80 | Fasttld.Props.C80_valid | propext, Classical.choice, Quot.sound |
| C81 | Fasttld.Props.C81_reverse | propext, Classical.choice, Quot.sound |
| C81 | Fasttld.Props.C81_nestedDict | propext, Classical.choice, Quot.sound |
| C81 | Fasttld.Props.C81_accesses | propext, Classical.choice, Quot.sound |
| C81 | Fasttld.Props.C81_error | propext, Classical.choice, Quot.sound |
| C81 | Fasttld.Props.C81_build | propext, Classical.choice, Quot.sound |
| C82 | Fasttld.Props.C82_accesses | propext, Classical.choice, Quot.sound |
| C82 | Fasttld.Props.C82_loads_once | propext, Classical.choice, Quot.sound |
| C82 | Fasttld.Props.C82_extract | propext, Classical.choice, Quot.sound |
| C82 | Fasttld.Props.C82_jobs | propext, Classical.choice, Quot.sound |
| C82 | Fasttld.Props.C82_goroutines | propext, Classical.choice, Quot.sound |
| C82 | Fasttld.Props.C82_start | propext, Classical.choice, Quot.sound |
| C83 | Fasttld.Props.C83_new | propext, Classical.choice, Quot.sound |
| C83 | Fasttld.Props.C83_update | propext, Classical.choice, Quot.sound |
| C83 | Fasttld.Props.C83_new_log | propext, Classical.choice, Quot.sound |
| C83 | Fasttld.Props.C83_checkCacheFile | propext, Classical.choice, Quot.sound |
| C83 | Fasttld.Props.C83_mirrors | propext, Classical.choice, Quot.sound |
| C84 | Fasttld.Props.C84_extract | propext, Classical.choice, Quot.sound |
| C84 | Fasttld.Props.C84_extract_log | propext, Classical.choice, Quot.sound |
| C84 | Fasttld.Props.C84_end_to_end | propext, Classical.choice, Quot.sound |
| C85 | Fasttld.Props.C85_printRes | propext, Classical.choice, Quot.sound |
| C86 | Fasttld.Props.C86_same | propext, Classical.choice, Quot.sound |
| C86 | Fasttld.Props.C86_command | propext, Classical.choice, Quot.sound |
| C86 | Fasttld.Props.C86_ends | propext, Classical.choice, Quot.sound |
| C86 | Fasttld.Props.C86_text | propext, Classical.choice, Quot.sound |
| C87 | Fasttld.Props.C87_history | propext, Classical.choice, Quot.sound |
| C87 | Fasttld.Props.C87_next | propext, Classical.choice, Quot.sound |
| C87 | Fasttld.Props.C87_ends | propext, Classical.choice, Quot.sound |
| C88 | Fasttld.Props.C88_shared | propext, Classical.choice, Quot.sound |
| C88 | Fasttld.Props.C88_grows | propext, Classical.choice, Quot.sound |
| C88 | Fasttld.Props.C88_goes_on | propext, Classical.choice, Quot.sound |
| C88 | Fasttld.Props.C88_schedules | propext, Classical.choice, Quot.sound |
| C88 | Fasttld.Props.C88_crash_leaves | propext, Classical.choice, Quot.sound |
| C88 | Fasttld.Props.C88_crash_safe | propext, Classical.choice, Quot.sound |
| C88 | Fasttld.Props.C88_crash_possible | propext, Classical.choice, Quot.sound |
| C88 | Fasttld.Props.C88_counterexample | propext, Classical.choice, Quot.sound |
| C88 | Fasttld.Props.C88_crash_counterexample | propext, Classical.choice, Quot.sound |
| C89 | Fasttld.Props.C89_imports | propext, Classical.choice, Quot.sound |
| C89 | Fasttld.Props.C89_command | propext, Classical.choice, Quot.sound |
| C89 | Fasttld.Props.C89_locals | propext |
| C89 | Fasttld.Props.C89_all | propext, Quot.sound |
| C89 | Fasttld.Props.C89_package | propext |
| C90 | Fasttld.Props.C90_text | propext, Classical.choice, Quot.sound |
| C90 | Fasttld.Props.C90_demo | propext, Classical.choice, Quot.sound |
| C90 | Fasttld.Props.C90_readme | propext, Classical.choice, Quot.sound |
| C90 | Fasttld.Props.C90_ends | propext, Classical.choice, Quot.sound |
