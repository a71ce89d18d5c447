{"claims": [
 {"property": "C01", "status": "proved", "theorems": ["Beschi.Props.C01_accepted_wellFormed", "Beschi.Props.C01_members_distinct", "Beschi.Props.C01_namespace"], "note": "All documented rules, for every document the TOML parser can return."},
 {"property": "C02", "status": "proved", "theorems": ["Beschi.Props.C02_wellFormed_accepted", "Beschi.Props.C02_accepted_iff"], "note": "Every well-formed acyclic protocol, written as a description, loads to itself."},
 {"property": "C03", "status": "proved", "theorems": ["Beschi.Props.C03_accepted_acyclic"], "note": ""},
 {"property": "C04", "status": "partial", "theorems": ["Beschi.Props.C04_not_always_terminating", "Beschi.Props.C04_diverges_of_lead_in", "Beschi.Props.C04_terminates_partial", "Beschi.Props.C04_error_is_cycle", "Beschi.Props.C04_first_struct_cycle_partial"], "note": "The claim is false: a struct leading into a cycle hangs the loader. Only circular descriptions can hang."},
 {"property": "C05", "status": "proved", "theorems": ["Beschi.Props.C05_narrowest", "Beschi.Props.C05_encoding_cases", "Beschi.Props.C05_out_of_range_rejected"], "note": ""},
 {"property": "C06", "status": "partial", "theorems": ["Beschi.Props.C06_distinct", "Beschi.Props.C06_names_numbered", "Beschi.Props.C06_entries_kept_partial", "Beschi.Props.C06_names_dropped"], "note": "The last clause (no name dropped) is false for repeated names in the numbered form; proved when names are distinct."},
 {"property": "C07", "status": "partial", "theorems": ["Beschi.Props.C07_duplicate_enum_accepted", "Beschi.Props.C07_enum_names_partial"], "note": "The claim is false: a repeated enum replaces the earlier one."},
 {"property": "C08", "status": "proved", "theorems": ["Beschi.Props.C08_identifiers", "Beschi.Props.C08_distinct", "Beschi.Props.C08_unknown"], "note": "For every language, whenever the generated file compiles."},
 {"property": "C09", "status": "proved", "theorems": ["Beschi.Props.C09_simple_iff", "Beschi.Props.C09_body_simple_iff", "Beschi.Props.C09_size_exact", "Beschi.Props.C09_body_size_exact", "Beschi.Props.C09_size_refused"], "note": ""},
 {"property": "C10", "status": "partial", "theorems": ["Beschi.Props.C10_one_wire_format_partial", "Beschi.Props.C10_fails_rust_bytes", "Beschi.Props.C10_fails_rust_bools", "Beschi.Props.C10_fails_csharp_method", "Beschi.Props.C10_fails_csharp_class", "Beschi.Props.C10_fails_csharp_element", "Beschi.Props.C10_fails_go_method", "Beschi.Props.C10_fails_go_package", "Beschi.Props.C10_fails_swift_method", "Beschi.Props.C10_fails_typescript_method", "Beschi.Props.C10_fails_assemblyscript_method", "Beschi.Props.C10_fails_zig_method", "Beschi.Props.C10_fails_zig_file", "Beschi.Props.C10_fails_zig_union", "Beschi.Props.C10_fails_zig_enum", "Beschi.Props.C10_fails_zig_struct", "Beschi.Props.C10_fails_zig_empty", "Beschi.Props.C10_fails_c_file", "Beschi.Props.C10_fails_c_fields", "Beschi.Props.C10_fails_c_order"], "note": "Proved for protocols and texts satisfying Language.Supported / Faithful / Measured (Lang/Support.lean, Lang/Languages.lean); the _fails_ theorems (Props/Limits.lean) refute the unconditional claim, one accepted protocol for each kind of condition."},
 {"property": "C11", "status": "partial", "theorems": ["Beschi.Props.C11_round_trip_partial", "Beschi.Props.C11_fails_rust_reader", "Beschi.Props.C11_fails_csharp_locals", "Beschi.Props.C11_fails_csharp_inner", "Beschi.Props.C11_fails_go_unexported", "Beschi.Props.C11_fails_swift_locals", "Beschi.Props.C11_fails_swift_mark", "Beschi.Props.C11_fails_typescript_locals", "Beschi.Props.C11_fails_typescript_mark", "Beschi.Props.C11_fails_assemblyscript_locals", "Beschi.Props.C11_fails_assemblyscript_unknown", "Beschi.Props.C11_fails_zig_locals", "Beschi.Props.C11_fails_zig_flat", "Beschi.Props.C11_fails_zig_long"], "note": "Proved for protocols and texts satisfying Language.Supported / Faithful / Measured (Lang/Support.lean, Lang/Languages.lean); the _fails_ theorems (Props/Limits.lean) refute the unconditional claim, one accepted protocol for each kind of condition."},
 {"property": "C12", "status": "partial", "theorems": ["Beschi.Props.C12_interoperable_partial"], "note": "Proved for protocols and texts satisfying Language.Supported / Faithful / Measured (Lang/Support.lean, Lang/Languages.lean); the _fails_ theorems (Props/Limits.lean) refute the unconditional claim, one accepted protocol for each kind of condition."},
 {"property": "C13", "status": "partial", "theorems": ["Beschi.Props.C13_size_partial", "Beschi.Props.C13_fails_csharp", "Beschi.Props.C13_fails_typescript", "Beschi.Props.C13_fails_assemblyscript"], "note": "Proved for protocols and texts satisfying Language.Supported / Faithful / Measured (Lang/Support.lean, Lang/Languages.lean); the _fails_ theorems (Props/Limits.lean) refute the unconditional claim, one accepted protocol for each kind of condition."},
 {"property": "C14", "status": "partial", "theorems": ["Beschi.Props.C14_tagged_partial"], "note": "Proved for protocols and texts satisfying Language.Supported / Faithful / Measured (Lang/Support.lean, Lang/Languages.lean); the _fails_ theorems (Props/Limits.lean) refute the unconditional claim, one accepted protocol for each kind of condition."},
 {"property": "C15", "status": "partial", "theorems": ["Beschi.Props.C15_truncated_partial", "Beschi.Props.C15_fails_csharp", "Beschi.Props.C15_fails_go"], "note": "Proved for protocols supported by the language (Language.Supported); excepted are messages with texts in C# and with texts or variable structs in Go (NoticesCuts), where cuts go unnoticed. That the failure is reported rather than a crash holds under NeverCrashes."},
 {"property": "C16", "status": "partial", "theorems": ["Beschi.Props.C16_read_inside_partial", "Beschi.Props.C16_process_inside_partial", "Beschi.Props.C16_fails_go", "Beschi.Props.C16_fails_signed_text", "Beschi.Props.C16_fails_signed_list", "Beschi.Props.C16_negative_length_accepted", "Beschi.Props.C16_fails_zig"], "note": "Proved for supported protocols: reading and stream processing end inside the data or fail; that the failure is never a crash holds under NeverCrashes; the _fails_ theorems give crashes for protocols outside it."},
 {"property": "C17", "status": "partial", "theorems": ["Beschi.Props.C17_enums_checked_partial", "Beschi.Props.C17_undeclared_refused_partial", "Beschi.Props.C17_go_direct_enums_partial", "Beschi.Props.C17_fails_go", "Beschi.Props.C17_fails_assemblyscript"], "note": "Proved for supported protocols in C, C#, Rust, Swift, TypeScript and Zig; for Go only for enums directly in messages; false in AssemblyScript."},
 {"property": "C18", "status": "partial", "theorems": ["Beschi.Props.C18_enum_values_partial", "Beschi.Props.C18_fails_assemblyscript_unsorted", "Beschi.Props.C18_fails_assemblyscript_largest"], "note": "Proved for protocols and texts satisfying Language.Supported / Faithful / Measured (Lang/Support.lean, Lang/Languages.lean); the _fails_ theorems (Props/Limits.lean) refute the unconditional claim, one accepted protocol for each kind of condition."},
 {"property": "C19", "status": "partial", "theorems": ["Beschi.Props.C19_stream_written_partial", "Beschi.Props.C19_all_partial", "Beschi.Props.C19_limit_partial"], "note": "Proved for protocols and texts satisfying Language.Supported / Faithful / Measured (Lang/Support.lean, Lang/Languages.lean); the _fails_ theorems (Props/Limits.lean) refute the unconditional claim, one accepted protocol for each kind of condition."},
 {"property": "C20", "status": "partial", "theorems": ["Beschi.Props.C20_zero_ends_partial", "Beschi.Props.C20_fails_zig"], "note": "Proved for protocols and texts satisfying Language.Supported / Faithful / Measured (Lang/Support.lean, Lang/Languages.lean); the _fails_ theorems (Props/Limits.lean) refute the unconditional claim, one accepted protocol for each kind of condition."},
 {"property": "C21", "status": "partial", "theorems": ["Beschi.Props.C21_unknown_partial", "Beschi.Props.C21_broken_partial", "Beschi.Props.C21_fails_assemblyscript"], "note": "Proved for supported protocols in all languages but AssemblyScript, whose stream processing ends quietly. In Swift and Zig the statement about broken messages is for streams at the start of the data."},
 {"property": "C22", "status": "partial", "theorems": ["Beschi.Props.C22_pack_unpack_partial", "Beschi.Props.C22_packed_form_partial", "Beschi.Props.C22_fails_assemblyscript"], "note": "Proved for protocols and texts satisfying Language.Supported / Faithful / Measured (Lang/Support.lean, Lang/Languages.lean); the _fails_ theorems (Props/Limits.lean) refute the unconditional claim, one accepted protocol for each kind of condition."},
 {"property": "C23", "status": "partial", "theorems": ["Beschi.Props.C23_packed_size_partial"], "note": "Proved for protocols and texts satisfying Language.Supported / Faithful / Measured (Lang/Support.lean, Lang/Languages.lean); the _fails_ theorems (Props/Limits.lean) refute the unconditional claim, one accepted protocol for each kind of condition."},
 {"property": "C24", "status": "partial", "theorems": ["Beschi.Props.C24_unpack_checks_partial", "Beschi.Props.C24_unpack_reports_partial", "Beschi.Props.C24_fails_short"], "note": "Header and count are checked in all languages for supported protocols; that failures are never crashes is proved for Rust and TypeScript and false in the others."},
 {"property": "C25", "status": "partial", "theorems": ["Beschi.Props.C25_defaults_partial", "Beschi.Props.C25_fails_typescript", "Beschi.Props.C25_fails_assemblyscript"], "note": "Proved for protocols and texts satisfying Language.Supported / Faithful / Measured (Lang/Support.lean, Lang/Languages.lean); the _fails_ theorems (Props/Limits.lean) refute the unconditional claim, one accepted protocol for each kind of condition."},
 {"property": "C26", "status": "partial", "theorems": ["Beschi.Props.C26_write_partial", "Beschi.Props.C26_zig_partial", "Beschi.Props.C26_pack_partial", "Beschi.Props.C26_pack_short_partial", "Beschi.Props.C26_pack_short_zig_partial", "Beschi.Props.C26_fails_zig", "Beschi.Props.C26_pack_fails_c", "Beschi.Props.C26_pack_fails_c_overrun", "Beschi.Props.C26_pack_fails_assemblyscript"], "note": "Proved in C, TypeScript and AssemblyScript for protocols their generated code supports. Missing: Zig stops instead of reporting a short buffer. For packing into short buffers C and AssemblyScript do not report the failure, and C writes outside the buffer; shown by witnesses."},
 {"property": "C27", "status": "partial", "theorems": ["Beschi.Props.C27_read_partial", "Beschi.Props.C27_cleanup_partial", "Beschi.Props.C27_destroy_partial", "Beschi.Props.C27_list_partial", "Beschi.Props.C27_process_partial", "Beschi.Props.C27_unpacked_partial", "Beschi.Props.C27_mismatch_partial", "Beschi.Props.C27_failed_read", "Beschi.Props.C27_failed_list"], "note": "Proved for every accepted protocol whose generated C compiles and works (C.Supported): after a successful read, _Cleanup, _Destroy and DestroyMessageList release exactly what has been allocated since, for single messages, streams and unpacked messages. Partial because of that condition. Beyond the statement: after a failed read, releasing crashes (C27_failed_read, C27_failed_list)."},
 {"property": "C28", "status": "partial", "theorems": ["Beschi.Props.C28_fails", "Beschi.Props.C28_created_partial", "Beschi.Props.C28_destroyed_partial"], "note": "False as stated: C28_fails. C28_created_partial and C28_destroyed_partial say exactly for which messages a created message can be written, measured and destroyed, for every accepted protocol whose generated C compiles (C.Supported)."},
 {"property": "C29", "status": "partial", "theorems": ["Beschi.Props.C29_go_names", "Beschi.Props.C29_rust_names", "Beschi.Props.C29_other_names", "Beschi.Props.C29_go_distinct_partial", "Beschi.Props.C29_rust_distinct_partial", "Beschi.Props.C29_rust_small_partial", "Beschi.Props.C29_rust_no_capitals", "Beschi.Props.C29_wire_partial", "Beschi.Props.C29_fails_rust", "Beschi.Props.C29_fails_go"], "note": "The claim is false: distinct members can become the same (witnesses for Go and Rust). Proved: what the renamed names are, that names differing in more than the case of the first letter (Go) or case and underscores (Rust) stay apart, and that the bytes do not depend on renaming."},
 {"property": "C30", "status": "partial", "theorems": ["Beschi.Props.C30_members_partial", "Beschi.Props.C30_fails_rust_length"], "note": "The claim is false: a member called x_len is overwritten by the length of a list x. Proved if no member has the name of a variable the reader declares."},
 {"property": "C31", "status": "partial", "theorems": ["Beschi.Props.C31_write_partial", "Beschi.Props.C31_read_partial", "Beschi.Props.C31_read_start_partial", "Beschi.Props.C31_process_partial", "Beschi.Props.C31_unpack_start_partial", "Beschi.Props.C31_pack_start_partial", "Beschi.Props.C31_fails_read", "Beschi.Props.C31_fails_overread", "Beschi.Props.C31_fails_unpack", "Beschi.Props.C31_fails_pack"], "note": "The claim is false for messages with text, for packing and for unpacking. Proved for writing, for reading messages without text, and for complete data in views that start where their buffer starts."},
 {"property": "C32", "status": "partial", "theorems": ["Beschi.Props.C32_sizes_partial", "Beschi.Props.C32_table", "Beschi.Props.C32_fails_csharp", "Beschi.Props.C32_fails_typescript", "Beschi.Props.C32_fails_assemblyscript", "Beschi.Props.C32_fails_zig_mixed", "Beschi.Props.C32_fails_zig_signed", "Beschi.Props.C32_fails_c"], "note": "The claim is false in C#, TypeScript, AssemblyScript, Zig and C. Proved: a table of the size types that work in each language, round trips for these, and a failing accepted protocol for every pair that is not in the table."},
 {"property": "C33", "status": "proved", "theorems": ["Beschi.Props.C33_has_bytes", "Beschi.Props.C33_round_trip", "Beschi.Props.C33_injective", "Beschi.Props.C33_total", "Beschi.Props.C33_reread", "Beschi.Props.C33_bool"], "note": "The number primitives of the target runtimes are assumed to be the little-endian functions of Lang/Numbers.lean."},
 {"property": "C34", "status": "proved", "theorems": ["Beschi.Props.C34_unambiguous", "Beschi.Props.C34_message_unambiguous", "Beschi.Props.C34_stream_unambiguous"], "note": ""},
 {"property": "C35", "status": "partial", "theorems": ["Beschi.Props.C35_failure", "Beschi.Props.C35_file_partial", "Beschi.Props.C35_stdout_partial", "Beschi.Props.C35_success", "Beschi.Props.C35_version", "Beschi.Props.C35_ends", "Beschi.Props.C35_generates", "Beschi.Props.C35_truncated", "Beschi.Props.C35_fails_truncated"], "note": "False in one case: if the text cannot be encoded, the output file has been emptied already. On the standard output the text is followed by a line break."},
 {"property": "C36", "status": "partial", "theorems": ["Beschi.Props.C36_file", "Beschi.Props.C36_unvalidated", "Beschi.Props.C36_fails", "Beschi.Props.C36_same_file_partial", "Beschi.Props.C36_same_partial"], "note": "The claim is false: any text is accepted as an argument. A namespace without whitespace acts like one in the file."},
 {"property": "C37", "status": "partial", "theorems": ["Beschi.Props.C37_replace", "Beschi.Props.C37_total", "Beschi.Props.C37_lines", "Beschi.Props.C37_depth_partial", "Beschi.Props.C37_depth_files", "Beschi.Props.C37_fails_depth"], "note": "For every line, every indentation and every boilerplate file. Depth is preserved for all boilerplate lines there are, not for every conceivable line."},
 {"property": "C38", "status": "partial", "theorems": ["Beschi.Props.C38_level_partial", "Beschi.Props.C38_matched_partial", "Beschi.Props.C38_fails_brackets"], "note": "For all eight writers and all options. Missing: namespaces that are arrays or tables; names with unmatched brackets, for which the claim is false."},
 {"property": "C39", "status": "proved", "theorems": ["Beschi.Props.C39_described", "Beschi.Props.C39_accepted_iff"], "note": "Both directions; the converse for descriptions whose sections have the documented shape."},
 {"property": "C40", "status": "partial", "theorems": ["Beschi.Props.C40_rust_partial", "Beschi.Props.C40_rust_choice_partial", "Beschi.Props.C40_swift_partial", "Beschi.Props.C40_swift_choice_partial", "Beschi.Props.C40_go_partial", "Beschi.Props.C40_go_choice_partial", "Beschi.Props.C40_typescript_partial", "Beschi.Props.C40_typescript_choice_partial", "Beschi.Props.C40_assemblyscript_partial", "Beschi.Props.C40_assemblyscript_choice_partial", "Beschi.Props.C40_csharp_partial", "Beschi.Props.C40_csharp_choice_partial", "Beschi.Props.C40_c_partial", "Beschi.Props.C40_c_choice_partial", "Beschi.Props.C40_zig_partial", "Beschi.Props.C40_zig_choice_partial", "Beschi.Props.C40_zig_library_partial", "Beschi.Props.C40_go_library_partial", "Beschi.Props.C40_rust_library_partial", "Beschi.Props.C40_swift_library_partial", "Beschi.Props.C40_typescript_library_partial", "Beschi.Props.C40_assemblyscript_library_partial", "Beschi.Props.C40_c_library_partial", "Beschi.Props.C40_csharp_library_partial"], "note": "All eight languages: all enums, structs, messages and the choice of a message by its number; in C also all functions for any message; also the library: reading and writing of each kind of number, of texts, and packing and unpacking. Missing: protocols whose namespace is an array or a table; in TypeScript, AssemblyScript, C# and C, member names with square brackets; in C's library, namespaces with other characters than letters, digits and `_`, or with BESCHI in them."},
 {"property": "C41", "status": "partial", "theorems": ["Beschi.Props.C41_read_partial", "Beschi.Props.C41_deinit_partial", "Beschi.Props.C41_fixed_partial", "Beschi.Props.C41_created_partial", "Beschi.Props.C41_process_partial", "Beschi.Props.C41_unpack_partial"], "note": "For every buffer and every allocator, for every accepted protocol whose generated Zig compiles (Zig.Supported); missing: protocols outside of Zig.Supported."},
 {"property": "C42", "status": "partial", "theorems": ["Beschi.Props.C42_fails", "Beschi.Props.C42_fails_refused", "Beschi.Props.C42_fails_stream", "Beschi.Props.C42_tidy_partial", "Beschi.Props.C42_untidy_partial", "Beschi.Props.C42_cut_partial", "Beschi.Props.C42_later_partial", "Beschi.Props.C42_process_fixed_partial", "Beschi.Props.C42_unpack_fixed_partial", "Beschi.Props.C42_process_partial", "Beschi.Props.C42_unpack_partial"], "note": "False as stated: C42_fails. A failed read leaves nothing allocated exactly for messages in which nothing comes after a text or list (C42_tidy_partial, C42_untidy_partial); a failed stream or unpacking, if all messages are of fixed size; otherwise all messages read before the failure stay allocated. For accepted protocols in Zig.Supported."},
 {"property": "C43", "status": "partial", "theorems": ["Beschi.Props.C43_fails", "Beschi.Props.C43_request_partial", "Beschi.Props.C43_list_partial"], "note": "False as stated: C43_fails; any length that can be written is asked for (C43_list_partial). True for messages in which no list can be reached (C43_request_partial). For accepted protocols in Zig.Supported."},
 {"property": "C44", "status": "partial", "theorems": ["Beschi.Props.C44_embedded", "Beschi.Props.C44_comment", "Beschi.Props.C44_adds_comment_partial", "Beschi.Props.C44_fails", "Beschi.Props.C44_fails_open"], "note": "That nothing but the framed lines of the protocol is added holds for all protocols, texts, languages and options (C44_embedded). That they are a comment is false as stated (C44_fails): it holds exactly for texts without `*/`, in Rust and Swift for texts in which `/*` and `*/` match, and in Zig always (C44_comment)."},
 {"property": "C45", "status": "partial", "theorems": ["Beschi.Props.C45_bytes", "Beschi.Props.C45_stream", "Beschi.Props.C45_written_partial", "Beschi.Props.C45_old_read_partial", "Beschi.Props.C45_new_read_partial", "Beschi.Props.C45_process_partial", "Beschi.Props.C45_unpack_partial", "Beschi.Props.C45_unknown_partial", "Beschi.Props.C45_described", "Beschi.Props.C45_width", "Beschi.Props.C45_fails_values", "Beschi.Props.C45_fails_front"], "note": "False if enum values are added that need a wider number type (C45_fails_values; exactly when: C45_width). Otherwise proved: identifiers and bytes stay (C45_bytes, C45_stream), without any further condition, and the programs understand each other for protocols and texts satisfying Language.Supported / Faithful. C45_described: what is loaded from a description with additions extends what was loaded."},
 {"property": "C46", "status": "partial", "theorems": ["Beschi.Props.C46_read", "Beschi.Props.C46_process", "Beschi.Props.C46_read_message_partial", "Beschi.Props.C46_write_partial", "Beschi.Props.C46_pack_partial", "Beschi.Props.C46_unpack_place", "Beschi.Props.C46_unpack_partial", "Beschi.Props.C46_fails_second", "Beschi.Props.C46_fails_unpack"], "note": "Holds for reading, processing, writing and packing (the last two for the protocols AssemblyScript supports). False for unpacking: the messages are taken from the underlying buffer at positions counted from its start (C46_unpack_place says exactly which bytes), so that it holds for views at offset 0, and the second of two packed groups can be silently read as the first (C46_fails_second). A new view over the buffer cannot fail to be created, as it ends no later than the given one."},
 {"property": "C47", "status": "partial", "theorems": ["Beschi.Props.C47_same", "Beschi.Props.C47_sections", "Beschi.Props.C47_unknown_key", "Beschi.Props.C47_reordered", "Beschi.Props.C47_bytes", "Beschi.Props.C47_stream", "Beschi.Props.C47_understood_partial", "Beschi.Props.C47_fails_invalid"], "note": "All of it is proved: sections, keys, left-out sections (C47_same, C47_sections, C47_unknown_key), and structs and enums in another order (C47_reordered, C47_bytes, C47_stream; reading and writing by generated code for the supported protocols and texts, C47_understood_partial). For descriptions that are not accepted, the order of the structs may decide whether they are refused or loading hangs (C47_fails_invalid). The wording of error messages is not modelled."},
 {"property": "C48", "status": "partial", "theorems": ["Beschi.Props.C48_independent_partial", "Beschi.Props.C48_conventional_partial", "Beschi.Props.C48_one_language_partial", "Beschi.Props.C48_only_names", "Beschi.Props.C48_bytes_partial", "Beschi.Props.C48_fails_after", "Beschi.Props.C48_fails_before", "Beschi.Props.C48_fails_rust"], "note": "Proved if no constructor renames members (C48_independent_partial), if names are already in the style of the languages used (C48_conventional_partial), and if all writers are for Go or all for Rust with the same choice of renaming (C48_one_language_partial). Otherwise false, since the constructors for Go and Rust rename the members of the shared object (C48_fails_after, C48_fails_before, C48_fails_rust). In every case only names of members differ (C48_only_names) and the bytes are the same for supported protocols (C48_bytes_partial). Namespaces that are arrays or tables are left out."},
 {"property": "C49", "status": "proved", "theorems": ["Beschi.Props.C49_foreign_flags", "Beschi.Props.C49_same_text", "Beschi.Props.C35_generates"], "note": "Options are passed as a dictionary filtered by the prefix of their names, as in cli.py; a missing key would be a KeyError. argparse itself is not modelled."},
 {"property": "C50", "status": "partial", "theorems": ["Beschi.Props.C50_swift", "Beschi.Props.C50_typescript", "Beschi.Props.C50_typescript_none", "Beschi.Props.C50_typescript_ignores", "Beschi.Props.C50_csharp", "Beschi.Props.C50_go", "Beschi.Props.C50_go_no_rename", "Beschi.Props.C50_rust", "Beschi.Props.C50_assemblyscript_ignores", "Beschi.Props.C50_zig_ignores", "Beschi.Props.C50_fails_go", "Beschi.Props.C50_c", "Beschi.Props.C50_csharp_empty", "Beschi.Props.C50_go_empty", "Beschi.Props.C50_fails_empty"], "note": "Proved for C (namespaces without `{`), C#, Rust, Swift, TypeScript with a namespace, Go with renaming, and the languages that ignore the namespace. False in Go with --go-no-rename, where the package is always `beschi` (C50_go_no_rename, C50_fails_go), in TypeScript with --typescript-use-namespace and no namespace, where the namespace is `None` (C50_typescript_none), and for an empty namespace in Swift and TypeScript, where a block without a name is written (C50_fails_empty); C# and Go treat it as none."},
 {"property": "C51", "status": "partial", "theorems": ["Beschi.Props.C51_value", "Beschi.Props.C51_stream_value", "Beschi.Props.C51_granted", "Beschi.Props.C51_stream_granted", "Beschi.Props.C51_asked", "Beschi.Props.C51_stream_asked", "Beschi.Props.C51_refused_partial", "Beschi.Props.C51_stream_refused_partial", "Beschi.Props.C51_unpack_value", "Beschi.Props.C51_unpack_granted", "Beschi.Props.C51_unpack_refused_partial", "Beschi.Props.C51_kinds", "Beschi.Props.C51_stream_kinds", "Beschi.Props.C51_unpack_kinds", "Beschi.Props.C51_unpack_asked", "Beschi.Props.C51_fails"], "note": "Proved for protocols without lists of texts. False with lists of texts: the check after allocating `_els_len` tests the wrong pointer, so a refused request leads to a store through a null pointer (C51_fails). Values, granted requests, and that every text, list and message has a request of its own are covered for all protocols."}
]}
