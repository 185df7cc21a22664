{"claims": [
 {"property": "C01", "status": "proved", "theorems": ["Verif.c01_reads_unique", "Verif.c01_gte", "Verif.c01_gt", "Verif.c01_error_iff", "Verif.c01_refl", "Verif.c01_trans", "Verif.c01_total", "Verif.c01_strict"], "note": ""},
 {"property": "C02", "status": "proved", "theorems": ["Verif.c02_selected", "Verif.c02_plain", "Verif.c02_malformed"], "note": ""},
 {"property": "C03", "status": "proved", "theorems": ["Verif.c03_accepts_iff"], "note": ""},
 {"property": "C04", "status": "proved", "theorems": ["Verif.c04_inject_effect", "Verif.c04_inject_iff", "Verif.c04_null_panics"], "note": ""},
 {"property": "C05", "status": "proved", "theorems": ["Verif.c05_order_irrelevant"], "note": ""},
 {"property": "C06", "status": "proved", "theorems": ["Verif.c06_stdin"], "note": ""},
 {"property": "C07", "status": "proved", "theorems": ["Verif.c07_runtime_config", "Verif.c07_own_runtime_config_passes"], "note": ""},
 {"property": "C08", "status": "proved", "theorems": ["Verif.c08_delivered", "Verif.c08_from_text", "Verif.c08_add_list", "Verif.c08_large_changed", "Verif.c08_small_integers_kept", "Verif.c08_large_integers_change"], "note": ""},
 {"property": "C09", "status": "proved", "theorems": ["Verif.c09_loaded", "Verif.c09_loads_iff", "Verif.c09_no_panic"], "note": ""},
 {"property": "C10", "status": "proved", "theorems": ["Verif.c10_upconvert", "Verif.c10_succeeds_iff", "Verif.c10_succeeds", "Verif.c10_may_fail"], "note": ""},
 {"property": "C11", "status": "proved", "theorems": ["Verif.c11_byte_order", "Verif.c11_first_list", "Verif.c11_unloadable", "Verif.c11_fallback", "Verif.c11_total", "Verif.c11_unreadable", "Verif.c11_no_panic", "Verif.c11_order_irrelevant", "Verif.c11_single"], "note": ""},
 {"property": "C12", "status": "proved", "theorems": ["Verif.c12_add_list", "Verif.c12_add_network"], "note": ""},
 {"property": "C13", "status": "proved", "theorems": ["Verif.c13_add_list", "Verif.c13_add_network", "Verif.c13_no_faults"], "note": ""},
 {"property": "C14", "status": "proved", "theorems": ["Verif.c14_del_list", "Verif.c14_del_bad_version", "Verif.c14_del_files", "Verif.c14_del_removes", "Verif.c14_del_network"], "note": ""},
 {"property": "C15", "status": "proved", "theorems": ["Verif.c15_check_list", "Verif.c15_check_network"], "note": ""},
 {"property": "C16", "status": "proved", "theorems": ["Verif.c16_cached_result", "Verif.c16_cached_result_network", "Verif.c16_check", "Verif.c16_check_network", "Verif.c16_del", "Verif.c16_del_network", "Verif.c16_del_old", "Verif.c16_faithful", "Verif.c16_faithful_network"], "note": "results whose networks are given and whose integers are below 2^53 (`c16_faithful`: for results of an ADD that is the same as Spec Representable); capability values within float64 range"},
 {"property": "C17", "status": "proved", "theorems": ["Verif.c17_cached_config", "Verif.c17_cached_config_network", "Verif.c17_exact"], "note": ""},
 {"property": "C18", "status": "proved", "theorems": ["Verif.c18_history", "Verif.c18_after_add", "Verif.c18_after_del"], "note": "histories without file faults, with names/IDs accepted by the validators (Proper); a failed list DEL may drop an unusable entry, which the statement records"},
 {"property": "C19", "status": "proved", "theorems": ["Verif.c19_distinct", "Verif.c19_collision", "Verif.c19_collision_effect"], "note": "distinct keys under the hypothesis that network name and container id contain no '-' separator ambiguity; the unrestricted claim is refuted by c19_collision / c19_collision_effect"},
 {"property": "C20", "status": "proved", "theorems": ["Verif.c20_add_list", "Verif.c20_add_network", "Verif.c20_empty_list_escapes", "Verif.c20_del_escapes"], "note": "ADD with at least one plugin validates; c20_empty_list_escapes and c20_del_escapes are witnesses that the empty plugin list and DEL do not"},
 {"property": "C21", "status": "proved", "theorems": ["Verif.c21_all", "Verif.c21_container", "Verif.c21_filter", "Verif.c21_history", "Verif.c21_added", "Verif.c21_unreadable"], "note": "entries well named, an invariant of histories; the deprecated rt.CacheDir is ignored by the listing"},
 {"property": "C22", "status": "proved", "theorems": ["Verif.c22_execs", "Verif.c22_valid_not_deleted", "Verif.c22_files", "Verif.c22_kept", "Verif.c22_disabled", "Verif.c22_history"], "note": "Deletes run only for entries of the network that are not valid, whatever the faults. The file part needs the entries to be in the files of their own names, which every history of API operations with UTF-8 interface names preserves (c22_history); an interface name that is not UTF-8 is stored with replacement characters and GC then does not recognise it."},
 {"property": "C23", "status": "proved", "theorems": ["Verif.c23_gc", "Verif.c23_complete", "Verif.c23_history", "Verif.c23_unlisted"], "note": "For plugin configurations that are still plugin configurations after being rewritten (Sound; all lists with inline plugins are: c24_loaded_sound). A DEL that panics on a cached result with null entries (see C50) ends the GC; the second disjunct says so."},
 {"property": "C24", "status": "proved", "theorems": ["Verif.c24_loaded_sound", "Verif.c24_no_crash", "Verif.c24_crash", "Verif.c24_file_crashes"], "note": "Lists loaded from text crash GC only through conversion of a cached result with null entries (C50). A configuration that cannot be rewritten crashes it in every fault-free run; such a configuration can come from a plugin file of its own, e.g. {\"type\":\"x\",\"foo\":1e999} (c24_file_crashes)."},
 {"property": "C25", "status": "proved", "theorems": ["Verif.c25_status", "Verif.c25_old", "Verif.c25_outcome"], "note": "For all lists; a configuration that cannot be rewritten gives an error and one that is not an object a panic, neither of which occurs for lists loaded from text."},
 {"property": "C26", "status": "proved", "theorems": ["Verif.c26_validate", "Verif.c26_validate_network"], "note": "The order of the returned capabilities (Go map iteration) is not specified: only their set and that there are no duplicates."},
 {"property": "C27", "status": "proved", "theorems": ["Verif.c27_one_converter", "Verif.c27_same_version", "Verif.c27_reports_requested", "Verif.c27_unknown_target", "Verif.c27_unknown_source", "Verif.c27_every_pair", "Verif.c27_getAsVersion"], "note": "well-typed results (Go type matches reported version); the only failure is no address when going to 0.1.0/0.2.0"},
 {"property": "C28", "status": "proved", "theorems": ["Verif.c28_up_down", "Verif.c28_up_down_lossless", "Verif.c28_down_up", "Verif.c28_same_format_040", "Verif.c28_same_format_100", "Verif.c28_family_needed"], "note": ""},
 {"property": "C29", "status": "proved", "theorems": ["Verif.c29_from_040", "Verif.c29_from_100", "Verif.c29_fails_iff"], "note": "null-free results"},
 {"property": "C30", "status": "proved", "theorems": ["Verif.c30_via_040", "Verif.c30_via_100", "Verif.c30_routes_kept", "Verif.c30_address_needed"], "note": ""},
 {"property": "C31", "status": "proved", "theorems": ["Verif.c31_no_panic", "Verif.c31_null_ip_panics", "Verif.c31_null_interface_panics", "Verif.c31_null_route_panics"], "note": ""},
 {"property": "C32", "status": "proved", "theorems": ["Verif.c32_created", "Verif.c32_roundtrip", "Verif.c32_roundtrip_any", "Verif.c32_roundtrip_detect", "Verif.c32_roundtrip_std", "Verif.c32_exact_needed"], "note": "addresses as parsed (16-byte); c32_roundtrip_std covers 4-byte addresses up to that normalisation; 1.x needs integers below 2^53 (c32_exact_needed)"},
 {"property": "C33", "status": "proved", "theorems": ["Verif.c33_named", "Verif.c33_unnamed", "Verif.c33_error", "Verif.c33_result"], "note": ""},
 {"property": "C34", "status": "proved", "theorems": ["Verif.c34_absent", "Verif.c34_ok", "Verif.c34_unsupported", "Verif.c34_version", "Verif.c34_capital", "Verif.c34_mismatch", "Verif.c34_empty_version_rejected"], "note": "c34_version/c34_mismatch for prevResults that do not use another capitalisation of cniVersion; c34_empty_version_rejected records that an empty stated version is rejected"},
 {"property": "C35", "status": "proved", "theorems": ["Verif.c35_only_valid", "Verif.c35_valid_called"], "note": "callbacks are arbitrary functions of their arguments; what else they do is not modelled"},
 {"property": "C36", "status": "proved", "theorems": ["Verif.c36_environment", "Verif.c36_no_command", "Verif.c36_stdin", "Verif.c36_undecodable", "Verif.c36_name", "Verif.c36_version_undecodable", "Verif.c36_version_mismatch", "Verif.c36_version_malformed", "Verif.c36_callback_error", "Verif.c36_codes", "Verif.c36_unknown_command"], "note": "errors skel itself produces; a callback's CNI error is passed through, any other error becomes code 999"},
 {"property": "C37", "status": "proved", "theorems": ["Verif.c37_version", "Verif.c37_decodes"], "note": ""},
 {"property": "C38", "status": "proved", "theorems": ["Verif.c38_own_namespace", "Verif.c38_success"], "note": "the check comes after the callback has run (the code's behaviour), which the theorem says"},
 {"property": "C39", "status": "proved", "theorems": ["Verif.c39_add_list", "Verif.c39_add_network", "Verif.c39_check_list", "Verif.c39_check_network", "Verif.c39_del_list", "Verif.c39_del_network", "Verif.c39_gc", "Verif.c39_gc_del", "Verif.c39_status", "Verif.c39_other_spelling"], "note": "ADD as stated, and also CHECK, DEL, GC and STATUS (names valid as hypothesis there, since only ADD validates). The version the plugin reads is the list's unless the plugin configuration spells cniVersion in another case: c39_other_spelling is a witness that then the plugin reads that one."},
 {"property": "C40", "status": "proved", "theorems": ["Verif.c40_plugin_env", "Verif.c40_delegate_env"], "note": ""},
 {"property": "C41", "status": "proved", "theorems": ["Verif.c41_add", "Verif.c41_check", "Verif.c41_del", "Verif.c41_status", "Verif.c41_gc", "Verif.c41_same_environment", "Verif.c41_delegate_accepts"], "note": "os.Getenv is the first binding; c41_same_environment (the delegate reads the same variables) is for environments that do not repeat a name."},
 {"property": "C42", "status": "proved", "theorems": ["Verif.c42_values", "Verif.c42_load_values", "Verif.c42_ip", "Verif.c42_parse_iff", "Verif.c42_roundtrip", "Verif.c42_load", "Verif.c42_load_malformed"], "note": ""},
 {"property": "C43", "status": "proved", "theorems": ["Verif.c43_container_id", "Verif.c43_network_name", "Verif.c43_interface_name"], "note": ""},
 {"property": "C44", "status": "proved", "theorems": ["Verif.c44_find_iff", "Verif.c44_find_fails_iff", "Verif.c44_unix", "Verif.c44_no_escape"], "note": ""},
 {"property": "C45", "status": "proved", "theorems": ["Verif.c45_success", "Verif.c45_failure", "Verif.c45_busy", "Verif.c45_false_when_busy"], "note": "the title claim has one exception in the code, a binary that stays busy for all six attempts; c45_success states both cases, c45_false_when_busy is the witness"},
 {"property": "C46", "status": "proved", "theorems": ["Verif.c46_add_names", "Verif.c46_del_names", "Verif.c46_add_list", "Verif.c46_add_network", "Verif.c46_check_list", "Verif.c46_check_network", "Verif.c46_del_list", "Verif.c46_del_network", "Verif.c46_status", "Verif.c46_gc", "Verif.c46_delegate_add", "Verif.c46_delegate", "Verif.c46_error_doc", "Verif.c46_no_output", "Verif.c46_garbage", "Verif.c46_undecodable", "Verif.c46_skel", "Verif.c46_skel_answer", "Verif.c46_skel_add"], "note": "From the document printed (c46_error_doc and the other raw-exec theorems) through every API operation (c46_add_list ... c46_gc, delegation), and from a skel plugin's main function (c46_skel*). For GC the error is one of those joined. Texts formatted with %q are not modelled exactly. c46_add_names and c46_del_names: which plugin failed (Go quotes type and name with %q, which leaves ordinary names as they are)."},
 {"property": "C47", "status": "proved", "theorems": ["Verif.c47_ipv4", "Verif.c47_ipv6", "Verif.c47_json", "Verif.c47_mapped_changes_family"], "note": ""},
 {"property": "C48", "status": "proved", "theorems": ["Verif.c48_add_list", "Verif.c48_add_network", "Verif.c48_del_list", "Verif.c48_del_network", "Verif.c48_gc", "Verif.c48_torn_rejected", "Verif.c48_torn_listing", "Verif.c48_recover_list", "Verif.c48_stuck", "Verif.c48_readonly", "Verif.c48_history", "Verif.c48_never_misread", "Verif.c48_never_mislisted"], "note": "list recovery as stated (c48_recover_list); c48_stuck records that DelNetwork/CheckNetwork/CheckNetworkList from 0.4.0 on fail while the torn file is there. ADDs with at least one plugin; plain names for DEL"},
 {"property": "C49", "status": "proved", "theorems": ["Verif.c49_projection", "Verif.c49_alone", "Verif.c49_cache", "Verif.c49_untouched"], "note": "any number of concurrent clients (sessions of operations, GC, listings) with partial writes visible; c49_projection allows several clients per entry; GC must not count an attachment of the entry as stale"},
 {"property": "C50", "status": "proved", "theorems": ["Verif.c50_add", "Verif.c50_add_network", "Verif.c50_del", "Verif.c50_del_network", "Verif.c50_check", "Verif.c50_check_network", "Verif.c50_status", "Verif.c50_gc", "Verif.c50_reads", "Verif.c50_loaded_file", "Verif.c50_loaded_conf", "Verif.c50_loaded_name", "Verif.c50_null_crashes"], "note": "ADD and STATUS never panic; DEL, CHECK, cached-result reads and GC only if the cache file concerned holds a result with a null list entry, for plugin configurations that are JSON objects (everything the loaders return); GC additionally needs configurations that can be rewritten (see C24)."},
 {"property": "C51", "status": "proved", "theorems": ["Verif.c51_cnitool_id_valid", "Verif.c51_cnitool_id_injective"], "note": ""},
 {"property": "C52", "status": "proved", "theorems": ["Verif.c52_from_file"], "note": ""},
 {"property": "C53", "status": "proved", "theorems": ["Verif.c53_output", "Verif.c53_returned", "Verif.c53_add_network", "Verif.c53_add_list", "Verif.c53_skel_answer"], "note": "results with UTF-8 strings and integers exact in float64, as C32; an error of writing to stdout is not modelled"},
 {"property": "C54", "status": "proved", "theorems": ["Verif.c54_stdin", "Verif.c54_bare", "Verif.c54_add_list", "Verif.c54_add_network", "Verif.c54_check", "Verif.c54_del", "Verif.c54_gc", "Verif.c54_status", "Verif.c54_loaded_file", "Verif.c54_loaded", "Verif.c54_other_format"], "note": "configurations that spell the common fields as documented, once each (others: c39 shows what the other-case key does); results as in C32; c54_other_format records that a result in another format is passed on unconverted and cannot be parsed"},
 {"property": "C55", "status": "proved", "theorems": ["Verif.c55_get100", "Verif.c55_get040", "Verif.c55_get020", "Verif.c55_unset", "Verif.c55_unset_refused", "Verif.c55_registered", "Verif.c55_creators", "Verif.c55_converters", "Verif.c55_one_converter"], "note": ""},
 {"property": "C56", "status": "proved", "theorems": ["Verif.c56_value", "Verif.c56_fails", "Verif.c56_keeps", "Verif.c56_address_bytes", "Verif.c56_same", "Verif.c56_independent", "Verif.c56_shared", "Verif.c56_receiver"], "note": ""},
 {"property": "C57", "status": "proved", "theorems": ["Verif.c57_asks", "Verif.c57_document", "Verif.c57_not_document", "Verif.c57_skel", "Verif.c57_validate"], "note": ""},
 {"property": "C58", "status": "proved", "theorems": ["Verif.c58_starting_from", "Verif.c58_all"], "note": ""},
 {"property": "C59", "status": "proved", "theorems": ["Verif.c59_round_trip", "Verif.c59_keys", "Verif.c59_pass_on"], "note": ""},
 {"property": "C60", "status": "proved", "theorems": ["Verif.c60_up_down", "Verif.c60_effects", "Verif.c60_add_list", "Verif.c60_add_other_format", "Verif.c60_del_old", "Verif.c60_empty", "Verif.c60_empty_old", "Verif.c60_undecodable"], "note": ""},
 {"property": "C61", "status": "proved", "theorems": ["Verif.c61_unique", "Verif.c61_add", "Verif.c61_check", "Verif.c61_del", "Verif.c61_gc", "Verif.c61_status", "Verif.c61_unknown", "Verif.c61_refused", "Verif.c61_env", "Verif.c61_add_del", "Verif.c61_gc_all"], "note": ""},
 {"property": "C62", "status": "proved", "theorems": ["Verif.c62_interface040", "Verif.c62_interface100", "Verif.c62_ip020", "Verif.c62_ip040", "Verif.c62_ip100", "Verif.c62_route", "Verif.c62_dns"], "note": ""},
 {"property": "C63", "status": "proved", "theorems": ["Verif.c63_plain_sound", "Verif.c63_add_list", "Verif.c63_add_network", "Verif.c63_del_list", "Verif.c63_del_network", "Verif.c63_check_list", "Verif.c63_check_network", "Verif.c63_status", "Verif.c63_gc", "Verif.c63_unreadable_cached"], "note": ""},
 {"property": "C64", "status": "proved", "theorems": ["Verif.c64_life", "Verif.c64_life_network"], "note": ""},
 {"property": "C65", "status": "proved", "theorems": ["Verif.c65_listing", "Verif.c65_gc", "Verif.c65_gc_removes"], "note": ""},
 {"property": "C66", "status": "proved", "theorems": ["Verif.c66_add_list", "Verif.c66_composed", "Verif.c66_add_network"], "note": ""},
 {"property": "C67", "status": "proved", "theorems": ["Verif.c67_only_found", "Verif.c67_inside"], "note": ""},
 {"property": "C68", "status": "proved", "theorems": ["Verif.c68_add", "Verif.c68_check", "Verif.c68_del", "Verif.c68_status", "Verif.c68_gc", "Verif.c68_added_is_valid", "Verif.c68_other_spelling", "Verif.c68_add_network", "Verif.c68_del_network", "Verif.c68_check_network", "Verif.c68_added_is_valid_network"], "note": ""},
 {"property": "C69", "status": "proved", "theorems": ["Verif.c69_add", "Verif.c69_del", "Verif.c69_check", "Verif.c69_status", "Verif.c69_gc", "Verif.c69_del_network", "Verif.c69_check_network", "Verif.c69_add_network"], "note": ""},
 {"property": "C70", "status": "proved", "theorems": ["Verif.c70_prev", "Verif.c70_faithful", "Verif.c70_cached", "Verif.c70_blank"], "note": ""},
 {"property": "C71", "status": "proved", "theorems": ["Verif.c71_now", "Verif.c71_settled", "Verif.c71_kept"], "note": ""},
 {"property": "C72", "status": "proved", "theorems": ["Verif.c72_gc", "Verif.c72_listing"], "note": ""},
 {"property": "C73", "status": "proved", "theorems": ["Verif.c73_refine", "Verif.c73_prev", "Verif.c73_gc", "Verif.c73_answers", "Verif.c73_now", "Verif.c73_settled", "Verif.c73_kept", "Verif.c73_apart", "Verif.c73_mixture"], "note": ""},
 {"property": "C74", "status": "proved", "theorems": ["Verif.c74_prev", "Verif.c74_gc", "Verif.c74_answers", "Verif.c74_now", "Verif.c74_kept", "Verif.c74_posix", "Verif.c74_posix_prev"], "note": ""},
 {"property": "C75", "status": "proved", "theorems": ["Verif.c75_add_list", "Verif.c75_add_network", "Verif.c75_check_list", "Verif.c75_check_network", "Verif.c75_del_list", "Verif.c75_del_network", "Verif.c75_status", "Verif.c75_gc", "Verif.c75_rules", "Verif.c75_add_rules"], "note": ""},
 {"property": "C76", "status": "proved", "theorems": ["Verif.c76_prev", "Verif.c76_gc", "Verif.c76_answers", "Verif.c76_now", "Verif.c76_ended", "Verif.c76_kept", "Verif.c76_once", "Verif.Example.c76_mixed_read"], "note": ""},
 {"property": "C77", "status": "proved", "theorems": ["Verif.c77_check", "Verif.c77_add", "Verif.c77_add_list", "Verif.c77_cached", "Verif.c77_del", "Verif.c77_del_list", "Verif.c77_type", "Verif.c77_type_needed", "Verif.c77_validate", "Verif.c77_capabilities", "Verif.c77_validate_caps"], "note": ""},
 {"property": "C78", "status": "proved", "theorems": ["Verif.c78_retry", "Verif.c78_retry_network", "Verif.c78_gc_again"], "note": ""},
 {"property": "C79", "status": "proved", "theorems": ["Verif.c79_result", "Verif.c79_result_network", "Verif.c79_check", "Verif.c79_check_network", "Verif.c79_del", "Verif.c79_del_network", "Verif.c79_config", "Verif.c79_unlisted", "Verif.c79_gc"], "note": ""},
 {"property": "C80", "status": "proved", "theorems": ["Verif.c80_where", "Verif.c80_unlisted", "Verif.c80_gc", "Verif.c80_ignored", "Verif.c80_ignored_network", "Verif.c80_elsewhere"], "note": ""},
 {"property": "C81", "status": "proved", "theorems": ["Verif.c81_debug_file", "Verif.c81_records", "Verif.c81_touches", "Verif.c81_silent", "Verif.c81_refuses", "Verif.c81_logs", "Verif.c81_log_missing", "Verif.c81_write_fails", "Verif.c81_log", "Verif.c81_last", "Verif.c81_reports", "Verif.c81_which", "Verif.c81_process", "Verif.c81_exit", "Verif.c81_versions", "Verif.c81_add_list", "Verif.c81_del_list", "Verif.c81_check_list", "Verif.c81_status"], "note": ""},
 {"property": "C82", "status": "proved", "theorems": ["Verif.c82_listed", "Verif.c82_asks", "Verif.c82_result", "Verif.c82_check", "Verif.c82_deleted", "Verif.c82_collected", "Verif.c82_stays", "Verif.c82_unremoved", "Verif.c82_once", "Verif.Example.c82_concurrent_listing"], "note": ""},
 {"property": "C83", "status": "proved", "theorems": ["Verif.c83_address", "Verif.c83_only", "Verif.c83_net", "Verif.c83_json"], "note": ""},
 {"property": "C84", "status": "proved", "theorems": ["Verif.c84_syntax", "Verif.c84_unambiguous", "Verif.c84_reprint", "Verif.c84_refused", "Verif.c84_spelling", "Verif.c84_characters", "Verif.c84_repair"], "note": "Go's limit of 10000 nesting levels is not modelled: the equivalence is with the whole grammar."},
 {"property": "C85", "status": "proved", "theorems": ["Verif.c85_address", "Verif.c85_network", "Verif.c85_unambiguous", "Verif.c85_documents"], "note": ""},
 {"property": "C86", "status": "proved", "theorems": ["Verif.c86_names", "Verif.c86_read", "Verif.c86_only", "Verif.c86_unambiguous", "Verif.c86_refused", "Verif.c86_from_bytes", "Verif.c86_config"], "note": ""},
 {"property": "C87", "status": "proved", "theorems": ["Verif.c87_spot", "Verif.c87_clean", "Verif.c87_spelling", "Verif.c87_entry", "Verif.c87_apart", "Verif.c87_plugin", "Verif.c87_search_path", "Verif.c87_extension", "Verif.c87_listed", "Verif.c87_beside", "Verif.c87_absolute"], "note": ""},
 {"property": "C88", "status": "proved", "theorems": ["Verif.c88_entry", "Verif.c88_attachment", "Verif.c88_config", "Verif.c88_result", "Verif.c88_add_list", "Verif.c88_add", "Verif.c88_base64"], "note": ""},
 {"property": "C89", "status": "proved", "theorems": ["Verif.c89_nearest", "Verif.c89_too_large", "Verif.c89_decoded", "Verif.c89_refused", "Verif.c89_refused_args", "Verif.c89_once", "Verif.c89_inject", "Verif.c89_load", "Verif.c89_stdin", "Verif.c89_prev", "Verif.c89_tool"], "note": ""},
 {"property": "C90", "status": "proved", "theorems": ["Verif.c90_nil", "Verif.c90_empty"], "note": ""}
]}
