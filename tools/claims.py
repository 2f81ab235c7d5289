claim('C01', 'proved', 'C01_noprefix C01_nosuffix C01_empty_suffix_quirk C01_any', 'Suffixes must be non-empty: nosuffix with an empty suffix returns the empty string (C01_empty_suffix_quirk).')
claim('C02', 'proved', 'C02_versioned_dict_history C02_versioned_dict_absent')
claim('C03', 'partial', 'C03_additions_visible_refuted C03_additions_visible_partial C03_list_additions_visible_refuted C03_list_additions_visible_partial', 'False of the code: the per-version cache is never invalidated by add(). Partial: holds if the version was not looked up before the add.')
claim('C04', 'proved', 'C04_versioned_list C04_versioned_list_mem')
claim('C06', 'proved', 'C06_maybe_rel_inside C06_maybe_rel_cases C06_maybe_rel_none')
claim('C07', 'proved', 'C07_format_duration C07_format_duration_widths C07_format_duration_injective C07_rounding C07_nearest_unique', 'A float is a fraction; halves are rounded to even.')
claim('C08', 'proved', 'C08_argv_roundtrip C08_strings_roundtrip C08_path_roundtrip C08_str_is_exploded C08_bytes_fails', 'A bare str command is iterated character by character and a bare bytes command fails, defects of the logging helper only.')
claim('C19', 'proved', 'C19_version_order C19_ranges_partition C19_trichotomy C19_prefix_precedes')
claim('C09', 'proved', 'C09_header_roundtrip C09_header_sound C09_header_invalid')
claim('C10', 'partial', 'C10_eflags_refuted C10_eflags_partial C10_eflags_elf64', 'False of the code for 64-bit files (offset 0x24 is inside e_phoff there, C10_eflags_refuted, C10_eflags_elf64). Partial: holds for 32-bit files.')
claim('C11', 'proved', 'C11_symbol_row C11_symbol_row_sound C11_no_colon_ignored C11_hex_size_dropped C11_white_space C11_digits C11_line_ends', 'Rows with a decimal size as the property says; rows whose size binutils prints in hexadecimal are dropped by the code (C11_hex_size_dropped).')
claim('C12', 'proved', 'C12_thumb C12_last_row_wins')
claim('C13', 'proved', 'C13_mapped_iff C13_offset C13_first C13_order_irrelevant C13_read C13_read_symbol C13_read_symbol_unknown')
claim('C14', 'proved', 'C14_read_string C14_read_string_invalid C14_read_string_sound', 'Strict UTF-8, against the encoder of the Lean core library.')
claim('C15', 'partial', 'C15_read_string_terminates_refuted C15_read_string_terminates_partial C15_hang_is_divergence C15_read_string_eof', 'False of the code: without a NUL byte before the end of the file the loop never ends. Partial: terminates iff there is one.')
claim('C16', 'partial', 'C16_next_symbol_refuted C16_next_symbol_partial C16_next_symbol_none', 'False of the code when a non-function symbol has the odd address of a Thumb function. Partial: all other tables (all non-ARM tables).')
claim('C20', 'proved', 'C20_common_prefixes C20_empty')
claim('C47', 'proved', 'C47_define_signature C47_define_no_arguments', 'Words of a type are separated by blanks; a lone star between two other stars ("* * *") is excluded because the code joins stars only pairwise. Definition texts end at the first line end that closes a parenthesis (Spells).')
claim('C48', 'proved', 'C48_expand_macros C48_field_count C48_parse_signature')
claim('C49', 'proved', 'C49_asmlinkage C49_asmlinkage_void', 'Up to seven arguments, as the code asserts.')
claim('C50', 'partial', 'C50_terminates_refuted C50_terminates_partial C50_file_too_short', 'False of the code: without a line end closing a parenthesis the loop never ends (C50_terminates_refuted). Partial: exact condition for termination.')
claim('C51', 'proved', 'C51_ftrace_metadata C51_no_metadata', 'Same exclusion of "* * *" as C47; if two entries have the same name the last one is kept.')
claim('C52', 'proved', 'C52_signature_priority C52_no_error_without_location C52_only_source_errors', 'C52_only_source_errors: after location extraction neither the assertion nor the missing file and line cases can fire.')
claim('C23', 'proved', 'C23_time_suffix C23_time_digits C23_plain_unchanged C23_time_suffix_plain C23_prefix_removed')
claim('C24', 'proved', 'C24_at_most_one_class C24_order_irrelevant C24_detection C24_abis C24_some_abi C24_instance_matches C24_name', 'ARM ABIs are C26; PowerPC objects need a big-endian ELF, see C25.')
claim('C25', 'partial', 'C25_refuted C25_matches_partial', 'False of the code: matches() asserts big endian on PowerPC. Partial: exact result for all other ELFs.')
claim('C26', 'partial', 'C26_refuted C26_abis_partial', 'False of the code: without sys_oabi_call_table the ABI is always oabi, e_flags are not looked at. Partial: exact result and when it is right.')
claim('C27', 'proved', 'C27_aliases C27_names supportedArchs_complete supportedArchs_rows')
claim('C28', 'proved', 'C28_one_of_two C28_compat C28_x86_abi_prefix C28_ppc64_dot')
claim('C38', 'proved', 'C38_x86_slots C38_x32_slots C38_other_slots', 'x32 indexes below 2^30.')
claim('C39', 'proved', 'C39_ppc_slots C39_no_loss')
claim('C40', 'proved', 'C40_arm C40_ppc C40_others')
claim('C41', 'partial', 'C41_x86_partial C41_x86_refuted C41_arm C41_mips C41_no_check', 'ARM and MIPS as stated. x86: false for the whole 64-bit register with the b8 form (C41_x86_refuted); proved for eax, and for rax with the 48 c7 c0 form. Functions cut off by the end of the file are excluded on x86 and MIPS.')
claim('C42', 'partial', 'C42_ppc_partial C42_refuted_stack C42_refuted_branch', 'False of the code in general. Partial: code of a plain shape (PlainPpcCode).')
claim('C43', 'partial', 'C43_reference_partial C43_empty_reference_refuted', 'False of the code when the reference function has size 0.')
claim('C05', 'proved', 'C05_tables_unambiguous C05_arch_tables_unambiguous C05_order_independent C05_answer_is_coverage', 'The pairwise test on the finite tables is evaluated by the kernel and lifted to every version tuple by a lemma on the lexicographic order.')
claim('C61', 'proved', 'C61_syscall_deps C61_any_tables C61_shipped C61_json', '')
claim('C62', 'proved', 'C62_edit_config C62_no_options C62_malformed', '')
claim('C63', 'proved', 'C63_check_deps', 'Assumes non-empty values to be set: an empty one counts as absent (kconfig.py:82 uses `or`). All shipped values are non-empty.')
claim('C64', 'proved', 'C64_parse_config C64_last C64_malformed', '')
claim('C65', 'partial', 'C65_variants_independent_refuted C65_variants_independent_partial', 'False in general: class-level tables are shared and mutated by constructors. Proved when all objects of the class are the same variant.')
claim('C17', 'proved', 'C17_three C17_two C17_none C17_roundtrip C17_banner C17_vmlinux C17_vmlinux_none', 'Digits are the ASCII ones.')
claim('C18', 'partial', 'C18_version_tag_refuted C18_version_tag_partial', 'False of the code: a two-component version (from a version string) makes version_tag raise ValueError. Partial: three components.')
claim('C21', 'proved', 'C21_longest_prefix C21_reported_names')
claim('C22', 'proved', 'C22_names_are_pieces C22_reported_names')
claim('C29', 'proved', 'C29_roundtrip C29_entries')
claim('C30', 'proved', 'C30_unsized C30_unsized_eof', 'C30_unsized_eof: a table running into the end of the file raises struct.error.')
claim('C31', 'proved', 'C31_descriptors', 'Assumes the first entry can be read, as the code does.')
claim('C32', 'proved', 'C32_choice')
claim('C33', 'partial', 'C33_reproducible_refuted C33_reproducible_partial', 'False of the code with duplicate symbol names (the last row wins). Partial: distinct names.')
claim('C34', 'proved', 'C34_slot_increasing C34_numbers_increasing')
claim('C35', 'proved', 'C35_reported_iff C35_ni', 'The stages before (table, emulator) and the location finder are parameters constrained by EnvOk.')
claim('C36', 'partial', 'C36_unresolved_refuted C36_resolved_partial', 'False of the code: with an unresolved entry the assertion at kernel.py:496 always fails. Partial: success when all entries resolve.')
claim('C37', 'partial', 'C37_all_unimplemented_refuted C37_nothing_partial', 'False of the code: max() of no names raises ValueError. Partial: the cases that do return an empty list.')
claim('C53', 'proved', 'C53_good_locations C53_points_at_definition', 'C53_points_at_definition: for names made of word characters, in terms of the independent specification of definitions. A name with a dot is used as a regular expression by the code.')
claim('C54', 'partial', 'C54_definitions C54_macro_exact C54_function_exact_partial C54_other_name_refuted', 'The accepted texts are characterised exactly. False of the code for functions returning plain `unsigned` (type and name may be glued); proved for macros and for functions with another return type.')
claim('C55', 'proved', 'C55_never_down C55_signature C55_no_signature C55_unchanged C55_same_function C55_missing', '')
claim('C56', 'proved', 'C56_each_once C56_assignment C56_stable', '')
claim('C57', 'partial', 'C57_arch_macro_refuted C57_standard_macros_partial', 'False of the code: rows are matched with base_exp only, so arch-specific macros found by grepping are never used.')
claim('C58', 'partial', 'C58_inner_addresses_refuted C58_addresses_partial', 'False of the code: the range is exclusive, vaddr+size-2 is left out, and size 3 runs addr2line without addresses.')
claim('C59', 'proved', 'C59_rows', 'No symbolic links in the tree.')
claim('C60', 'proved', 'C60_locations_frame C60_signatures_frame C60_env_ok', '')
claim('C79', 'partial', 'C79_missing_debug_info_refuted C79_known_last_partial', 'False of the code: location.py:409 evaluates rel(None) when the last inner address has no file and an earlier one had a wrong location. Partial: the step never raises that error when the last address is known.')
claim('C44', 'proved', 'C44_terminates')
claim('C45', 'proved', 'C45_exact C45_fresh_targets C45_flags_needed', 'The decoder is a parameter. A direct call counts as leaving the function (as in the code). C45_flags_needed shows the condition on flags cannot be dropped.')
claim('C46', 'partial', 'C46_order C46_keys C46_one_place C46_exact_partial C46_success C46_two_defaults_refuted C46_after_call_refuted C46_env_ok', 'False of the code when two different branches lead to the default case, or a branch is only reached by returning from a call: nothing is extracted. Partial: exact map otherwise; and whenever anything is extracted the map is exact (C46_success).')
claim('C66', 'partial', 'C66_restored_partial C66_one_character C66_restored_refuted', 'False of the code for a Makefile with carriage returns (read in text mode). Partial: exact restoration for every other content and every outcome.')
claim('C67', 'partial', 'C67_exact_partial C67_stock C67_restored_refuted C67_emptied', 'False of the code: the second attempt is not covered by the exit handler. Partial: exactly the points at which an interruption loses the Makefile.')
claim('C68', 'proved', 'C68_levels C68_stock', 'Makefiles without carriage returns.')
claim('C69', 'proved', 'C69_order C69_stops', 'All answers and interruption points.')
claim('C78', 'proved', 'C78_consistent')
claim('C80', 'partial', 'C80_input_refuted C80_input_partial', 'False of the code: Popen is called without stdin=PIPE, so communicate() drops the input. Partial: from 3.7 on no command is given input.')
claim('C81', 'partial', 'C81_same_config_refuted C81_same_config_partial', 'False of the code for relative paths. Partial: absolute paths.')
claim('C82', 'proved', 'C82_dependencies_consistent')
claim('C70', 'proved', 'C70_text', 'Paths without empty components, as pathlib makes them.')
claim('C71', 'partial', 'C71_json C71_no_tag', 'The output is read back by an independent JSON reader. False of the code for two-component versions: version_tag raises and nothing is written (C71_no_tag, see C18).')
claim('C72', 'partial', 'C72_html_partial C72_argument C72_html_refuted C72_no_signature', 'False of the code when all known signatures are empty (colspan="0" covers one column). Partial: some known signature has an argument. Without any known signature the program fails (C72_no_signature, excluded by the property).')
claim('C73', 'proved', 'C73_invalid C73_help')
claim('C74', 'partial', 'C74_commands C74_auto_ignored C74_checkout_refuted', 'False of the code: --checkout auto is ignored with --build/--config/--clean. Partial: everything else in the statement, for all command lines and environments.')
claim('C75', 'partial', 'C75_clean_partial C75_clean_fails C75_clean_refuted', 'False of the code: without --arch the constructor raises ValueError. Partial: with --arch, up to the AssertionError for an unsupported version.')
claim('C76', 'proved', 'C76_levels C76_messages')
claim('C77', 'proved', 'C77_exit C77_status C77_others C77_checked C77_old_version', 'C77_old_version: a version older than the architecture supports is not among the handled errors (AssertionError).')
claim('C83', 'proved', 'C83_paths', 'About the list that C84_output shows to be the printed one.')
claim('C84', 'proved', 'C84_output')
claim('C85', 'proved', 'C85_summary')
claim('C86', 'partial', 'C86_build_targets_partial C86_build_targets_refuted C86_arm_v3_7 C86_same_configuration', 'False of the code: note [2] of the help says defconfig for Linux <= v3.7 on arm, but multi_v7_defconfig is used from v3.7 on. Partial: every other row and version.')
claim('C87', 'partial', 'C87_sections_partial C87_lookup C87_debug_info C87_sections_refuted', 'False of the code: a section whose name has a character other than letters, digits, _ and . is not seen. Partial: all other names; C87_lookup says exactly what is found.')
claim('C88', 'proved', 'C88_json_run C88_run C88_image', 'Composition of C84, C35, C34, C60 and C71 over the whole program. C88_image: which image it is.')
claim('C89', 'proved', 'C89_origin C89_no_sources C89_no_addr2line', 'addr2line is assumed to print one row per address.')
claim('C90', 'partial', 'C90_remap_partial C90_remap_refuted', 'False of the code: with a relative KDIR, or RDIR above KDIR, a path below the directory of the image gets KDIR twice. Partial: KDIR absolute or the current directory, RDIR equal to KDIR or apart from it.')
claim('C91', 'proved', 'C91_text_run C91_html_run C91_locations C88_run', 'addr2line is assumed to print one row per address (text, locations).')
claim('C92', 'partial', 'C92_argument_count C92_metadata C92_metadata_no_end C92_macro_fields C92_no_macros_partial C92_unknown_macro_refuted', 'False of the code for definitions that also call a known macro: parentheses elsewhere are not looked for. Partial: no parentheses when no known macro is named; counts, macros and prototypes in full.')
claim('C93', 'proved', 'C93_edited_file C93_logged C93_configure C93_shipped_options', 'scripts/config is specified in Spec/ConfigTool (setting, state, upper-casing of names); names are not taken as regular expressions, which is harmless for the shipped ones.')
claim('C94', 'proved', 'C94_command_line C94_one_meaning C94_help C94_version C94_ambiguous C94_help_asked C94_version_asked C94_negative C94_run', 'argparse as of CPython 3.11/3.12; the texts of the help, version and usage messages are not modelled.')
claim('C95', 'proved', 'C95_failed_commands C95_command_line C95_built', 'addr2line and rg, run while extracting locations, are not in the history of commands.')
claim('C96', 'partial', 'C96_spu_numbers_partial C96_spu_before_5 C96_spu_numbers_refuted', 'False of the code before v5.0: the table of the SPU is taken for an interleaved one. Partial: from v5.0 on. That spu_syscall_table has one entry per number is a fact about Linux (arch/powerpc/platforms/cell/spu_callbacks.c), not in the repository.')
claim('C97', 'proved', 'C97_clicks C97_always_sorted C97_back C97_direction C97_text_order C97_run', 'Array.prototype.sort is a stable sort (ECMAScript 2019). Numbers from 2^53 on, read as hexadecimal, would be rounded.')
claim('C98', 'proved', 'C98_run', 'For dispatch functions of the form of C45 (GoodSwitch). The instruction decoder (iced-x86) and the iteration orders of sets are parameters.')
claim('C99', 'partial', 'C99_same C99_told C99_fatal C99_empty_partial C99_empty_refuted C99_lost C99_lost_refuted C99_header_partial C99_header_refuted', 'Refuted in four places: an analysis whose entries are all dummies or skipped ends with nothing and no error (C99_empty_refuted); the warning about table addresses outside the code has arguments not matching its format, so a traceback is shown instead, and the check of the most frequent entry compares integers with symbols and never reports (C99_lost, C99_lost_refuted); the message about an invalid class shows the byte order (C99_header_refuted). The messages of extract_syscall_vaddrs (x86) and of the location and signature modules are left out.')
claim('C100', 'partial', 'C100_ripgrep C100_files_refuted C100_nothing_refuted C100_at_least_partial C100_same_partial', 'False of the code: with rg, files directly in the excluded directories (such as lib/d.c) are searched, because the last matching glob wins; and a search without result ends the program, because rg exits with 1. C100_ripgrep says exactly which files rg reads; C100_at_least_partial: nothing found without rg is missed with it; C100_same_partial: same lines for trees without such files, ignored files, or hidden C files. ripgrep is modelled after its manual.')
claim('C101', 'partial', 'C101_order_partial C101_order_refuted', 'False of the code when two lines for one syscall have the same rank (such as mmap_pgoff in mm/mmap.c and mm/nommu.c): the first one wins. Partial: for lists without such a pair.')
claim('C102', 'proved', 'C102_reasons C102_told C102_stripped C102_otherwise C102_never_none', 'PowerPC images that are not big-endian end in an AssertionError instead (C25), kernels too old for the architecture as well (C77_old_version).')
claim('C103', 'partial', 'C103_table C103_registers_partial C103_aarch32 C103_registers_refuted C103_documented C103_selected C103_printed', 'False of the code for 32-bit programs on arm64 (arm64-aarch32): the registers printed are w8 and x0-x5, those of 64-bit programs, instead of r7 and r0-r6 (C103_registers_refuted). Tables, numbers, compat marks and all other conventions are proved. The SPU has no entry in syscall(2).')
claim('C104', 'partial', 'C104_debug C104_hopeless C104_outside C104_searched C104_sole_partial C104_relative C104_sole_refuted', 'False of the code with a relative KDIR: the relative paths of the files are compared with the resolved KDIR, count as outside, and the search is given up (C104_relative, C104_sole_refuted). Partial: whenever the debug information does not lead outside the resolved KDIR. addr2line is assumed to print one row per address. Special syscalls (esoteric) only need an existing file and line.')
claim('C105', 'proved', 'C105_page C105_unmarked C105_standing C105_run', 'The style sheet is taken to contain no tag (it has no "<"). File names are put into the address of the link as they are: a name with "#", "?" or "%" (there is none in Linux) would lead elsewhere.')
claim('C106', 'proved', 'C106_run C106_json_run C106_extraction', 'Definitions are the layouts of C47-C49 on any number of lines, metadata has the layout of C51; for other texts only what C92 says is stated. The translation of symbol names and the normal form of names are those of C23-C27 (functions of the architecture). The dummy check applies to the special syscalls too, as the code does.')
claim('C107', 'partial', 'C107_causes_partial C107_build C107_image_partial C107_banner_refuted C107_definition_refuted', 'False of the code: there are runs that go on for ever, with a banner or with a definition that has no end. Proved: cleaning, configuring and building always end; an analysis goes on for ever only if the banner (without a size), a string of the ftrace metadata or a definition in the sources has no end, so never for an image whose file ends with a zero byte and without sources.')
claim('C108', 'proved', 'C108_choice C108_run C108_classes', 'The classes are the list Spec.wishes. str.islower is modelled for ASCII names.')
claim('C109', 'proved', 'C109_record C109_unresolved C109_given_up', 'Messages of level WARNING and above of kernel.py:189-585; those of the location, signature and dispatch analyses are in C118. The text of a symbol is a parameter.')
claim('C110', 'partial', 'C110_lines C110_colors C110_no_terminal C110_program_messages C110_silence_partial C110_silence_refuted', 'Silence is false of the code: the SIGINT handler and the interpreter (uncaught exceptions) write to standard error whatever the options; it is proved for runs without these.')
claim('C111', 'partial', 'C111_enabled_partial C111_never_disabled C111_config_file C111_enabled_refuted C111_lists_complete C111_documented C111_oabi', 'False of the code for CACHESTAT_SYSCALL, EPOLL, MMU, MULTIUSER, QUOTACTL, SWAP and TMPFS, which are never set. For the others the exact first version they are turned on in is given for each architecture, and proved for all versions.')
claim('C112', 'partial', 'C112_failure C112_shell C112_success C112_not_started_partial C112_not_started_refuted C112_same C112_paste_partial C112_paste_refuted', 'False of the code: a missing command run without a directory ends with an AttributeError and no message, and commands are shown as Python lists and tuples, which no shell takes. Which characters outside ASCII are printable is a parameter; names that are not UTF-8 are not modelled.')
claim('C113', 'partial', 'C113_same C113_no_tool C113_no_sources C113_wrong_dir C113_outside C113_searched C113_wrong_source C113_never_trusted_partial C113_missing_refuted', 'False of the code for missing files: the message about them cannot be reached, they are passed over silently. For missing lines proved: never accepted for the first address, and status 1 exactly with the message. Failures of addr2line and rg themselves are C112.')
claim('C114', 'partial', 'C114_within C114_no_sources C114_no_tool C114_something_asked_partial C114_no_syscalls C114_nothing_asked_refuted', 'False of the code for functions of three bytes, and when there is no syscall at all: addr2line is then run without an address. Otherwise proved. Within one function the order of the questions is C104.')
claim('C115', 'partial', 'C115_line_only C115_above_only C115_same_partial C115_signature_partial C115_bad_line C115_carriage_return_refuted C115_not_utf8_refuted', 'False of the code: the signature is read in text mode, so a lone carriage return above shifts the line and bytes that are not UTF-8 above raise UnicodeDecodeError; a checked line that is not UTF-8 raises too. Proved for UTF-8 files without stray carriage returns, which also justifies files as lists of lines in the other models.')
claim('C116', 'proved', 'C116_same C116_one_error C116_other_arch C116_missing C116_too_small C116_no_register C116_stops C116_unreached C116_conflict C116_complete', 'Errors only; the debug output is not modelled. How an instruction is shown is a parameter.')
claim('C117', 'partial', 'C117_same_partial C117_equally_often C117_refuted', 'False of the code if instructions of the disassembler library have no order (to our knowledge they only have == and !=; the library is not part of the repository, so this is a parameter): the debug output sorts them by count and then by instruction, which raises TypeError when two different ones occur equally often. C44-C46, C98 and C116 are about the analysis without this sorting; C117_same_partial says when that makes no difference.')
claim('C118', 'proved', 'C118_same C118_run C118_strange C118_signed C118_no_strange C118_record C118_given_up C118_restriction', 'Composition of C109, C113, C116 with the messages of signature.py. addr2line is assumed to print one row per address; names are made of word characters (C118_record). C118_restriction shows that the restriction on source files is needed.')
claim('C119', 'proved', 'C119_same C119_record C119_edited_file C119_readable', 'Values to be set are non-empty; names without = (and as scripts/config writes them, for C119_edited_file). C119_same holds for all inputs, also malformed ones.')
claim('C120', 'partial', 'C120_same C120_reason_partial C120_reason_refuted C120_shown C120_analysis C120_built C120_quiet_refuted C120_bytes_shown C120_build_messages', 'Partial because the code refutes it: when the table has entries but no syscall is left in the end, the run ends with status 1 without saying so (the only exception, C120_reason_partial); and a single -q, documented as "no info", hides most reasons. Records of levels INFO and DEBUG are not modelled.')
claim('C121', 'partial', 'C121_output_partial C121_output_refuted C121_messages_partial C121_messages_order C121_messages_refuted', 'False of the code: with two ni_syscall functions of different sizes at one address, none of which is preferred, the hash seed decides which one is the reference for dummy syscalls, and so the result (C121_output_refuted). When ni_syscalls at one address have one size, everything is the same (C121_output_partial), all messages are as well when there is a table (C121_messages_partial), and without one (x86 from v6.9) they are the same ones in another order (C121_messages_order, C121_messages_refuted).')
claim('C122', 'partial', 'C122_left C122_recorded C122_contents C122_unpatched C122_one_partial C122_covered_partial C122_twice_refuted C122_killed_refuted C122_refines', 'False of the code: a second SIGINT during the exit handler can empty the Makefile (C122_twice_refuted), and a run killed while it restores leaves the Makefile empty or cut off (C122_killed_refuted). Proved: exactly what is left for every set of SIGINTs (C122_left), exactly the moments at which one is harmful (C122_one_partial), when several are harmless (C122_covered_partial), all contents ever on disk (C122_contents, C122_recorded), no change without the line or the option (C122_unpatched), agreement with the coarser model of C67 (C122_refines).')
claim('C123', 'partial', 'C123_later_partial C123_later_refuted C123_contents C123_never_repaired C123_finished', 'False of the code: after one badly timed Ctrl-C a later plain build is made with -O1 (C123_later_refuted), and a changed Makefile is never repaired by later runs (C123_never_repaired). Proved: with harmless interruptions only the Makefile is always the original (C123_later_partial); all contents that histories of runs can leave (C123_contents with kills, C123_finished without), for Makefiles with one such line.')
claim('C124', 'partial', 'C124_name_partial C124_name_refuted C124_small_table', 'False of the code: twenty syscalls sharing a second prefix (io_) all lose it (C124_name_refuted), and with fewer than twenty entries prefixes stay (C124_small_table). Proved for every successful run: a prefix that is known by itself, or shared by twenty entries while no longer one is, is removed and the rest is printed (C124_name_partial).')
claim('C125', 'proved', 'C125_replies C125_quiet C125_made', 'Objects over their life (Model/Object), each use with its own outside. The image is not written to while it is open, and other Kernel objects are not made in between.')
claim('C126', 'partial', 'C126_version_partial C126_kept C126_again C126_same C126_no_image C126_built_refuted', 'False of the code in its last part: an object made without an image never gets one, so reading its syscalls raises AttributeError after any uses (C126_no_image), also after a successful build (C126_built_refuted). The rest is proved (C126_version_partial, C126_kept, C126_again; C126_same: the methods are those of Model/Build after any uses).')
claim('C127', 'partial', 'C127_definition_partial C127_name_partial C127_row_partial C127_grep C127_fixed C127_flags C127_invalid_refuted C127_dot_refuted', 'False of the code: names are not escaped. A parenthesis in a name raises re.error (C127_invalid_refuted), and a dot, as in names made by compilers, stands for any character (C127_dot_refuted). Proved for names of word characters (C127_name_partial); with dots and dollars too nothing fails and the texts mean what the rest of the model takes them to mean (C127_definition_partial, C127_row_partial). The expressions without names: C127_grep, C127_fixed, C127_flags. Reading of expressions is a model of re.compile (Model/Pattern); what an expression matches is stated by Spec/Regex.')
claim('C128', 'partial', 'C128_contents_partial C128_plain C128_apart_partial C128_level_partial C128_single C128_ends C128_overlap_refuted C128_short_refuted C128_other_refuted', 'False of the code: nothing locks the Makefile. Two uninterrupted runs with --disable-opt may leave it patched for good (C128_overlap_refuted) or cut off (C128_short_refuted), and a run without the option may build from a patched one (C128_other_refuted). Proved: for every schedule, with interruptions and kills, what is on disk differs from the original only by missing or zeroed text and the level of optimisation (C128_contents_partial); runs without the option do no harm (C128_plain); one run with the option beside any number without (C128_single), or several that are never at the Makefile together (C128_apart_partial, C128_level_partial), leave it as it was and build with the level asked for, also when SIGINT arrives before the patch, after everything or while the first make runs. Every process ends after 7 n + 27 of its turns at most, n being the length of the Makefile, whatever the others do and whenever SIGINT arrives (C128_ends).')
claim('C129', 'proved', 'C129_recognised C129_unlisted', 'The converse of C41 and C42. Forms of stubs are stated in Spec/Stub, independent of the scanning in the code. A symbol without size has no code to look at and is not covered (a TODO in the code says so).')
claim('C130', 'partial', 'C130_link_partial C130_run_partial C130_refuted', 'False of the code: file names are put into addresses without encoding them, so a name with a percent sign, a hash or leading dots leads elsewhere (C130_refuted). Proved for names without spaces, control characters, # ? % and backslash, and other than . and .., with a reader of addresses after the URL standard: for a row (C130_link_partial) and for the page printed by every successful analysis (C130_run_partial). That the tag of the version exists is C18.')
claim('C131', 'partial', 'C131_read_partial C131_same_partial C131_refuted', 'False of the code in its last part: an argument with a comma in it looks like two, and a file named a.c:1 looks like line 1 of a.c (C131_refuted). Proved: index, number, names, symbol and option are read back, and the location and the arguments as text (C131_read_partial), so listings with the same text agree in them (C131_same_partial). Texts with an end of line in them or a space at the end are excluded (TidySyscall), and original names are not empty.')
claim('C132', 'partial', 'C132_formats C132_printed C132_agree_partial C132_status_refuted', 'False of the code as to the status: without any known signature the HTML page fails with ValueError while text and JSON are printed (C132_status_refuted, see C72; JSON and HTML also fail for versions of two numbers, see C18). Proved: up to writing, the runs are the same (C132_formats), and what is printed in any format is of the same result (C132_printed); rows of the table and objects of the document agree (C132_agree_partial, with the texts of C131). How rows of the HTML page show a syscall is C72 and C105.')
claim('C133', 'partial', 'C133_variants_partial C133_refuted', 'False of the code for three combinations: 32-bit PowerPC kernels with ppc64 or spu, and 32-bit RISC-V kernels with rv64, are accepted by the constructors (C133_refuted); neither --arch nor autodetection gives them (C27, C24). C133_variants_partial is exact for all others.')
