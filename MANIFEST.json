{
 "claims": [
  {
   "property": "C01",
   "status": "proved",
   "theorems": [
    "Verif.C01_noprefix",
    "Verif.C01_nosuffix",
    "Verif.C01_empty_suffix_quirk",
    "Verif.C01_any"
   ],
   "note": "Suffixes must be non-empty: nosuffix with an empty suffix returns the empty string (C01_empty_suffix_quirk)."
  },
  {
   "property": "C02",
   "status": "proved",
   "theorems": [
    "Verif.C02_versioned_dict_history",
    "Verif.C02_versioned_dict_absent"
   ],
   "note": ""
  },
  {
   "property": "C03",
   "status": "partial",
   "theorems": [
    "Verif.C03_additions_visible_refuted",
    "Verif.C03_additions_visible_partial",
    "Verif.C03_list_additions_visible_refuted",
    "Verif.C03_list_additions_visible_partial"
   ],
   "note": "False of the code: the per-version cache is never invalidated by add(). Partial: holds if the version was not looked up before the add."
  },
  {
   "property": "C04",
   "status": "proved",
   "theorems": [
    "Verif.C04_versioned_list",
    "Verif.C04_versioned_list_mem"
   ],
   "note": ""
  },
  {
   "property": "C05",
   "status": "proved",
   "theorems": [
    "Verif.C05_tables_unambiguous",
    "Verif.C05_arch_tables_unambiguous",
    "Verif.C05_order_independent",
    "Verif.C05_answer_is_coverage"
   ],
   "note": "The pairwise test on the finite tables is evaluated by the kernel and lifted to every version tuple by a lemma on the lexicographic order."
  },
  {
   "property": "C06",
   "status": "proved",
   "theorems": [
    "Verif.C06_maybe_rel_inside",
    "Verif.C06_maybe_rel_cases",
    "Verif.C06_maybe_rel_none"
   ],
   "note": ""
  },
  {
   "property": "C07",
   "status": "proved",
   "theorems": [
    "Verif.C07_format_duration",
    "Verif.C07_format_duration_widths",
    "Verif.C07_format_duration_injective",
    "Verif.C07_rounding",
    "Verif.C07_nearest_unique"
   ],
   "note": "A float is a fraction; halves are rounded to even."
  },
  {
   "property": "C08",
   "status": "proved",
   "theorems": [
    "Verif.C08_argv_roundtrip",
    "Verif.C08_strings_roundtrip",
    "Verif.C08_path_roundtrip",
    "Verif.C08_str_is_exploded",
    "Verif.C08_bytes_fails"
   ],
   "note": "A bare str command is iterated character by character and a bare bytes command fails, defects of the logging helper only."
  },
  {
   "property": "C09",
   "status": "proved",
   "theorems": [
    "Verif.C09_header_roundtrip",
    "Verif.C09_header_sound",
    "Verif.C09_header_invalid"
   ],
   "note": ""
  },
  {
   "property": "C10",
   "status": "partial",
   "theorems": [
    "Verif.C10_eflags_refuted",
    "Verif.C10_eflags_partial",
    "Verif.C10_eflags_elf64"
   ],
   "note": "False of the code for 64-bit files (offset 0x24 is inside e_phoff there, C10_eflags_refuted, C10_eflags_elf64). Partial: holds for 32-bit files."
  },
  {
   "property": "C100",
   "status": "partial",
   "theorems": [
    "Verif.C100_ripgrep",
    "Verif.C100_files_refuted",
    "Verif.C100_nothing_refuted",
    "Verif.C100_at_least_partial",
    "Verif.C100_same_partial"
   ],
   "note": "False of the code: with rg, files directly in the excluded directories (such as lib/d.c) are searched, because the last matching glob wins; and a search without result ends the program, because rg exits with 1. C100_ripgrep says exactly which files rg reads; C100_at_least_partial: nothing found without rg is missed with it; C100_same_partial: same lines for trees without such files, ignored files, or hidden C files. ripgrep is modelled after its manual."
  },
  {
   "property": "C101",
   "status": "partial",
   "theorems": [
    "Verif.C101_order_partial",
    "Verif.C101_order_refuted"
   ],
   "note": "False of the code when two lines for one syscall have the same rank (such as mmap_pgoff in mm/mmap.c and mm/nommu.c): the first one wins. Partial: for lists without such a pair."
  },
  {
   "property": "C102",
   "status": "proved",
   "theorems": [
    "Verif.C102_reasons",
    "Verif.C102_told",
    "Verif.C102_stripped",
    "Verif.C102_otherwise",
    "Verif.C102_never_none"
   ],
   "note": "PowerPC images that are not big-endian end in an AssertionError instead (C25), kernels too old for the architecture as well (C77_old_version)."
  },
  {
   "property": "C103",
   "status": "partial",
   "theorems": [
    "Verif.C103_table",
    "Verif.C103_registers_partial",
    "Verif.C103_aarch32",
    "Verif.C103_registers_refuted",
    "Verif.C103_documented",
    "Verif.C103_selected",
    "Verif.C103_printed"
   ],
   "note": "False of the code for 32-bit programs on arm64 (arm64-aarch32): the registers printed are w8 and x0-x5, those of 64-bit programs, instead of r7 and r0-r6 (C103_registers_refuted). Tables, numbers, compat marks and all other conventions are proved. The SPU has no entry in syscall(2)."
  },
  {
   "property": "C104",
   "status": "partial",
   "theorems": [
    "Verif.C104_debug",
    "Verif.C104_hopeless",
    "Verif.C104_outside",
    "Verif.C104_searched",
    "Verif.C104_sole_partial",
    "Verif.C104_relative",
    "Verif.C104_sole_refuted"
   ],
   "note": "False of the code with a relative KDIR: the relative paths of the files are compared with the resolved KDIR, count as outside, and the search is given up (C104_relative, C104_sole_refuted). Partial: whenever the debug information does not lead outside the resolved KDIR. addr2line is assumed to print one row per address. Special syscalls (esoteric) only need an existing file and line."
  },
  {
   "property": "C105",
   "status": "proved",
   "theorems": [
    "Verif.C105_page",
    "Verif.C105_unmarked",
    "Verif.C105_standing",
    "Verif.C105_run"
   ],
   "note": "The style sheet is taken to contain no tag (it has no \"<\"). File names are put into the address of the link as they are: a name with \"#\", \"?\" or \"%\" (there is none in Linux) would lead elsewhere."
  },
  {
   "property": "C106",
   "status": "proved",
   "theorems": [
    "Verif.C106_run",
    "Verif.C106_json_run",
    "Verif.C106_extraction"
   ],
   "note": "Definitions are the layouts of C47-C49 on any number of lines, metadata has the layout of C51; for other texts only what C92 says is stated. The translation of symbol names and the normal form of names are those of C23-C27 (functions of the architecture). The dummy check applies to the special syscalls too, as the code does."
  },
  {
   "property": "C107",
   "status": "partial",
   "theorems": [
    "Verif.C107_causes_partial",
    "Verif.C107_build",
    "Verif.C107_image_partial",
    "Verif.C107_banner_refuted",
    "Verif.C107_definition_refuted"
   ],
   "note": "False of the code: there are runs that go on for ever, with a banner or with a definition that has no end. Proved: cleaning, configuring and building always end; an analysis goes on for ever only if the banner (without a size), a string of the ftrace metadata or a definition in the sources has no end, so never for an image whose file ends with a zero byte and without sources."
  },
  {
   "property": "C108",
   "status": "proved",
   "theorems": [
    "Verif.C108_choice",
    "Verif.C108_run",
    "Verif.C108_classes"
   ],
   "note": "The classes are the list Spec.wishes. str.islower is modelled for ASCII names."
  },
  {
   "property": "C109",
   "status": "proved",
   "theorems": [
    "Verif.C109_record",
    "Verif.C109_unresolved",
    "Verif.C109_given_up"
   ],
   "note": "Messages of level WARNING and above of kernel.py:189-585; those of the location, signature and dispatch analyses are in C118. The text of a symbol is a parameter."
  },
  {
   "property": "C11",
   "status": "proved",
   "theorems": [
    "Verif.C11_symbol_row",
    "Verif.C11_symbol_row_sound",
    "Verif.C11_no_colon_ignored",
    "Verif.C11_hex_size_dropped",
    "Verif.C11_white_space",
    "Verif.C11_digits",
    "Verif.C11_line_ends"
   ],
   "note": "Rows with a decimal size as the property says; rows whose size binutils prints in hexadecimal are dropped by the code (C11_hex_size_dropped)."
  },
  {
   "property": "C110",
   "status": "partial",
   "theorems": [
    "Verif.C110_lines",
    "Verif.C110_colors",
    "Verif.C110_no_terminal",
    "Verif.C110_program_messages",
    "Verif.C110_silence_partial",
    "Verif.C110_silence_refuted"
   ],
   "note": "Silence is false of the code: the SIGINT handler and the interpreter (uncaught exceptions) write to standard error whatever the options; it is proved for runs without these."
  },
  {
   "property": "C111",
   "status": "partial",
   "theorems": [
    "Verif.C111_enabled_partial",
    "Verif.C111_never_disabled",
    "Verif.C111_config_file",
    "Verif.C111_enabled_refuted",
    "Verif.C111_lists_complete",
    "Verif.C111_documented",
    "Verif.C111_oabi"
   ],
   "note": "False of the code for CACHESTAT_SYSCALL, EPOLL, MMU, MULTIUSER, QUOTACTL, SWAP and TMPFS, which are never set. For the others the exact first version they are turned on in is given for each architecture, and proved for all versions."
  },
  {
   "property": "C112",
   "status": "partial",
   "theorems": [
    "Verif.C112_failure",
    "Verif.C112_shell",
    "Verif.C112_success",
    "Verif.C112_not_started_partial",
    "Verif.C112_not_started_refuted",
    "Verif.C112_same",
    "Verif.C112_paste_partial",
    "Verif.C112_paste_refuted"
   ],
   "note": "False of the code: a missing command run without a directory ends with an AttributeError and no message, and commands are shown as Python lists and tuples, which no shell takes. Which characters outside ASCII are printable is a parameter; names that are not UTF-8 are not modelled."
  },
  {
   "property": "C113",
   "status": "partial",
   "theorems": [
    "Verif.C113_same",
    "Verif.C113_no_tool",
    "Verif.C113_no_sources",
    "Verif.C113_wrong_dir",
    "Verif.C113_outside",
    "Verif.C113_searched",
    "Verif.C113_wrong_source",
    "Verif.C113_never_trusted_partial",
    "Verif.C113_missing_refuted"
   ],
   "note": "False of the code for missing files: the message about them cannot be reached, they are passed over silently. For missing lines proved: never accepted for the first address, and status 1 exactly with the message. Failures of addr2line and rg themselves are C112."
  },
  {
   "property": "C114",
   "status": "partial",
   "theorems": [
    "Verif.C114_within",
    "Verif.C114_no_sources",
    "Verif.C114_no_tool",
    "Verif.C114_something_asked_partial",
    "Verif.C114_no_syscalls",
    "Verif.C114_nothing_asked_refuted"
   ],
   "note": "False of the code for functions of three bytes, and when there is no syscall at all: addr2line is then run without an address. Otherwise proved. Within one function the order of the questions is C104."
  },
  {
   "property": "C115",
   "status": "partial",
   "theorems": [
    "Verif.C115_line_only",
    "Verif.C115_above_only",
    "Verif.C115_same_partial",
    "Verif.C115_signature_partial",
    "Verif.C115_bad_line",
    "Verif.C115_carriage_return_refuted",
    "Verif.C115_not_utf8_refuted"
   ],
   "note": "False of the code: the signature is read in text mode, so a lone carriage return above shifts the line and bytes that are not UTF-8 above raise UnicodeDecodeError; a checked line that is not UTF-8 raises too. Proved for UTF-8 files without stray carriage returns, which also justifies files as lists of lines in the other models."
  },
  {
   "property": "C116",
   "status": "proved",
   "theorems": [
    "Verif.C116_same",
    "Verif.C116_one_error",
    "Verif.C116_other_arch",
    "Verif.C116_missing",
    "Verif.C116_too_small",
    "Verif.C116_no_register",
    "Verif.C116_stops",
    "Verif.C116_unreached",
    "Verif.C116_conflict",
    "Verif.C116_complete"
   ],
   "note": "Errors only; the debug output is not modelled. How an instruction is shown is a parameter."
  },
  {
   "property": "C117",
   "status": "partial",
   "theorems": [
    "Verif.C117_same_partial",
    "Verif.C117_equally_often",
    "Verif.C117_refuted"
   ],
   "note": "False of the code if instructions of the disassembler library have no order (to our knowledge they only have == and !=; the library is not part of the repository, so this is a parameter): the debug output sorts them by count and then by instruction, which raises TypeError when two different ones occur equally often. C44-C46, C98 and C116 are about the analysis without this sorting; C117_same_partial says when that makes no difference."
  },
  {
   "property": "C118",
   "status": "proved",
   "theorems": [
    "Verif.C118_same",
    "Verif.C118_run",
    "Verif.C118_strange",
    "Verif.C118_signed",
    "Verif.C118_no_strange",
    "Verif.C118_record",
    "Verif.C118_given_up",
    "Verif.C118_restriction"
   ],
   "note": "Composition of C109, C113, C116 with the messages of signature.py. addr2line is assumed to print one row per address; names are made of word characters (C118_record). C118_restriction shows that the restriction on source files is needed."
  },
  {
   "property": "C119",
   "status": "proved",
   "theorems": [
    "Verif.C119_same",
    "Verif.C119_record",
    "Verif.C119_edited_file",
    "Verif.C119_readable"
   ],
   "note": "Values to be set are non-empty; names without = (and as scripts/config writes them, for C119_edited_file). C119_same holds for all inputs, also malformed ones."
  },
  {
   "property": "C12",
   "status": "proved",
   "theorems": [
    "Verif.C12_thumb",
    "Verif.C12_last_row_wins"
   ],
   "note": ""
  },
  {
   "property": "C120",
   "status": "partial",
   "theorems": [
    "Verif.C120_same",
    "Verif.C120_reason_partial",
    "Verif.C120_reason_refuted",
    "Verif.C120_shown",
    "Verif.C120_analysis",
    "Verif.C120_built",
    "Verif.C120_quiet_refuted",
    "Verif.C120_bytes_shown",
    "Verif.C120_build_messages"
   ],
   "note": "Partial because the code refutes it: when the table has entries but no syscall is left in the end, the run ends with status 1 without saying so (the only exception, C120_reason_partial); and a single -q, documented as \"no info\", hides most reasons. Records of levels INFO and DEBUG are not modelled."
  },
  {
   "property": "C121",
   "status": "partial",
   "theorems": [
    "Verif.C121_output_partial",
    "Verif.C121_output_refuted",
    "Verif.C121_messages_partial",
    "Verif.C121_messages_order",
    "Verif.C121_messages_refuted"
   ],
   "note": "False of the code: with two ni_syscall functions of different sizes at one address, none of which is preferred, the hash seed decides which one is the reference for dummy syscalls, and so the result (C121_output_refuted). When ni_syscalls at one address have one size, everything is the same (C121_output_partial), all messages are as well when there is a table (C121_messages_partial), and without one (x86 from v6.9) they are the same ones in another order (C121_messages_order, C121_messages_refuted)."
  },
  {
   "property": "C122",
   "status": "partial",
   "theorems": [
    "Verif.C122_left",
    "Verif.C122_recorded",
    "Verif.C122_contents",
    "Verif.C122_unpatched",
    "Verif.C122_one_partial",
    "Verif.C122_covered_partial",
    "Verif.C122_twice_refuted",
    "Verif.C122_killed_refuted",
    "Verif.C122_refines"
   ],
   "note": "False of the code: a second SIGINT during the exit handler can empty the Makefile (C122_twice_refuted), and a run killed while it restores leaves the Makefile empty or cut off (C122_killed_refuted). Proved: exactly what is left for every set of SIGINTs (C122_left), exactly the moments at which one is harmful (C122_one_partial), when several are harmless (C122_covered_partial), all contents ever on disk (C122_contents, C122_recorded), no change without the line or the option (C122_unpatched), agreement with the coarser model of C67 (C122_refines)."
  },
  {
   "property": "C123",
   "status": "partial",
   "theorems": [
    "Verif.C123_later_partial",
    "Verif.C123_later_refuted",
    "Verif.C123_contents",
    "Verif.C123_never_repaired",
    "Verif.C123_finished"
   ],
   "note": "False of the code: after one badly timed Ctrl-C a later plain build is made with -O1 (C123_later_refuted), and a changed Makefile is never repaired by later runs (C123_never_repaired). Proved: with harmless interruptions only the Makefile is always the original (C123_later_partial); all contents that histories of runs can leave (C123_contents with kills, C123_finished without), for Makefiles with one such line."
  },
  {
   "property": "C124",
   "status": "partial",
   "theorems": [
    "Verif.C124_name_partial",
    "Verif.C124_name_refuted",
    "Verif.C124_small_table"
   ],
   "note": "False of the code: twenty syscalls sharing a second prefix (io_) all lose it (C124_name_refuted), and with fewer than twenty entries prefixes stay (C124_small_table). Proved for every successful run: a prefix that is known by itself, or shared by twenty entries while no longer one is, is removed and the rest is printed (C124_name_partial)."
  },
  {
   "property": "C125",
   "status": "proved",
   "theorems": [
    "Verif.C125_replies",
    "Verif.C125_quiet",
    "Verif.C125_made"
   ],
   "note": "Objects over their life (Model/Object), each use with its own outside. The image is not written to while it is open, and other Kernel objects are not made in between."
  },
  {
   "property": "C126",
   "status": "partial",
   "theorems": [
    "Verif.C126_version_partial",
    "Verif.C126_kept",
    "Verif.C126_again",
    "Verif.C126_same",
    "Verif.C126_no_image",
    "Verif.C126_built_refuted"
   ],
   "note": "False of the code in its last part: an object made without an image never gets one, so reading its syscalls raises AttributeError after any uses (C126_no_image), also after a successful build (C126_built_refuted). The rest is proved (C126_version_partial, C126_kept, C126_again; C126_same: the methods are those of Model/Build after any uses)."
  },
  {
   "property": "C127",
   "status": "partial",
   "theorems": [
    "Verif.C127_definition_partial",
    "Verif.C127_name_partial",
    "Verif.C127_row_partial",
    "Verif.C127_grep",
    "Verif.C127_fixed",
    "Verif.C127_flags",
    "Verif.C127_invalid_refuted",
    "Verif.C127_dot_refuted"
   ],
   "note": "False of the code: names are not escaped. A parenthesis in a name raises re.error (C127_invalid_refuted), and a dot, as in names made by compilers, stands for any character (C127_dot_refuted). Proved for names of word characters (C127_name_partial); with dots and dollars too nothing fails and the texts mean what the rest of the model takes them to mean (C127_definition_partial, C127_row_partial). The expressions without names: C127_grep, C127_fixed, C127_flags. Reading of expressions is a model of re.compile (Model/Pattern); what an expression matches is stated by Spec/Regex."
  },
  {
   "property": "C128",
   "status": "partial",
   "theorems": [
    "Verif.C128_contents_partial",
    "Verif.C128_plain",
    "Verif.C128_apart_partial",
    "Verif.C128_level_partial",
    "Verif.C128_single",
    "Verif.C128_ends",
    "Verif.C128_overlap_refuted",
    "Verif.C128_short_refuted",
    "Verif.C128_other_refuted"
   ],
   "note": "False of the code: nothing locks the Makefile. Two uninterrupted runs with --disable-opt may leave it patched for good (C128_overlap_refuted) or cut off (C128_short_refuted), and a run without the option may build from a patched one (C128_other_refuted). Proved: for every schedule, with interruptions and kills, what is on disk differs from the original only by missing or zeroed text and the level of optimisation (C128_contents_partial); runs without the option do no harm (C128_plain); one run with the option beside any number without (C128_single), or several that are never at the Makefile together (C128_apart_partial, C128_level_partial), leave it as it was and build with the level asked for, also when SIGINT arrives before the patch, after everything or while the first make runs. Every process ends after 7 n + 27 of its turns at most, n being the length of the Makefile, whatever the others do and whenever SIGINT arrives (C128_ends)."
  },
  {
   "property": "C129",
   "status": "proved",
   "theorems": [
    "Verif.C129_recognised",
    "Verif.C129_unlisted"
   ],
   "note": "The converse of C41 and C42. Forms of stubs are stated in Spec/Stub, independent of the scanning in the code. A symbol without size has no code to look at and is not covered (a TODO in the code says so)."
  },
  {
   "property": "C13",
   "status": "proved",
   "theorems": [
    "Verif.C13_mapped_iff",
    "Verif.C13_offset",
    "Verif.C13_first",
    "Verif.C13_order_irrelevant",
    "Verif.C13_read",
    "Verif.C13_read_symbol",
    "Verif.C13_read_symbol_unknown"
   ],
   "note": ""
  },
  {
   "property": "C130",
   "status": "partial",
   "theorems": [
    "Verif.C130_link_partial",
    "Verif.C130_run_partial",
    "Verif.C130_refuted"
   ],
   "note": "False of the code: file names are put into addresses without encoding them, so a name with a percent sign, a hash or leading dots leads elsewhere (C130_refuted). Proved for names without spaces, control characters, # ? % and backslash, and other than . and .., with a reader of addresses after the URL standard: for a row (C130_link_partial) and for the page printed by every successful analysis (C130_run_partial). That the tag of the version exists is C18."
  },
  {
   "property": "C131",
   "status": "partial",
   "theorems": [
    "Verif.C131_read_partial",
    "Verif.C131_same_partial",
    "Verif.C131_refuted"
   ],
   "note": "False of the code in its last part: an argument with a comma in it looks like two, and a file named a.c:1 looks like line 1 of a.c (C131_refuted). Proved: index, number, names, symbol and option are read back, and the location and the arguments as text (C131_read_partial), so listings with the same text agree in them (C131_same_partial). Texts with an end of line in them or a space at the end are excluded (TidySyscall), and original names are not empty."
  },
  {
   "property": "C132",
   "status": "partial",
   "theorems": [
    "Verif.C132_formats",
    "Verif.C132_printed",
    "Verif.C132_agree_partial",
    "Verif.C132_status_refuted"
   ],
   "note": "False of the code as to the status: without any known signature the HTML page fails with ValueError while text and JSON are printed (C132_status_refuted, see C72; JSON and HTML also fail for versions of two numbers, see C18). Proved: up to writing, the runs are the same (C132_formats), and what is printed in any format is of the same result (C132_printed); rows of the table and objects of the document agree (C132_agree_partial, with the texts of C131). How rows of the HTML page show a syscall is C72 and C105."
  },
  {
   "property": "C133",
   "status": "partial",
   "theorems": [
    "Verif.C133_variants_partial",
    "Verif.C133_refuted"
   ],
   "note": "False of the code for three combinations: 32-bit PowerPC kernels with ppc64 or spu, and 32-bit RISC-V kernels with rv64, are accepted by the constructors (C133_refuted); neither --arch nor autodetection gives them (C27, C24). C133_variants_partial is exact for all others."
  },
  {
   "property": "C14",
   "status": "proved",
   "theorems": [
    "Verif.C14_read_string",
    "Verif.C14_read_string_invalid",
    "Verif.C14_read_string_sound"
   ],
   "note": "Strict UTF-8, against the encoder of the Lean core library."
  },
  {
   "property": "C15",
   "status": "partial",
   "theorems": [
    "Verif.C15_read_string_terminates_refuted",
    "Verif.C15_read_string_terminates_partial",
    "Verif.C15_hang_is_divergence",
    "Verif.C15_read_string_eof"
   ],
   "note": "False of the code: without a NUL byte before the end of the file the loop never ends. Partial: terminates iff there is one."
  },
  {
   "property": "C16",
   "status": "partial",
   "theorems": [
    "Verif.C16_next_symbol_refuted",
    "Verif.C16_next_symbol_partial",
    "Verif.C16_next_symbol_none"
   ],
   "note": "False of the code when a non-function symbol has the odd address of a Thumb function. Partial: all other tables (all non-ARM tables)."
  },
  {
   "property": "C17",
   "status": "proved",
   "theorems": [
    "Verif.C17_three",
    "Verif.C17_two",
    "Verif.C17_none",
    "Verif.C17_roundtrip",
    "Verif.C17_banner",
    "Verif.C17_vmlinux",
    "Verif.C17_vmlinux_none"
   ],
   "note": "Digits are the ASCII ones."
  },
  {
   "property": "C18",
   "status": "partial",
   "theorems": [
    "Verif.C18_version_tag_refuted",
    "Verif.C18_version_tag_partial"
   ],
   "note": "False of the code: a two-component version (from a version string) makes version_tag raise ValueError. Partial: three components."
  },
  {
   "property": "C19",
   "status": "proved",
   "theorems": [
    "Verif.C19_version_order",
    "Verif.C19_ranges_partition",
    "Verif.C19_trichotomy",
    "Verif.C19_prefix_precedes"
   ],
   "note": ""
  },
  {
   "property": "C20",
   "status": "proved",
   "theorems": [
    "Verif.C20_common_prefixes",
    "Verif.C20_empty"
   ],
   "note": ""
  },
  {
   "property": "C21",
   "status": "proved",
   "theorems": [
    "Verif.C21_longest_prefix",
    "Verif.C21_reported_names"
   ],
   "note": ""
  },
  {
   "property": "C22",
   "status": "proved",
   "theorems": [
    "Verif.C22_names_are_pieces",
    "Verif.C22_reported_names"
   ],
   "note": ""
  },
  {
   "property": "C23",
   "status": "proved",
   "theorems": [
    "Verif.C23_time_suffix",
    "Verif.C23_time_digits",
    "Verif.C23_plain_unchanged",
    "Verif.C23_time_suffix_plain",
    "Verif.C23_prefix_removed"
   ],
   "note": ""
  },
  {
   "property": "C24",
   "status": "proved",
   "theorems": [
    "Verif.C24_at_most_one_class",
    "Verif.C24_order_irrelevant",
    "Verif.C24_detection",
    "Verif.C24_abis",
    "Verif.C24_some_abi",
    "Verif.C24_instance_matches",
    "Verif.C24_name"
   ],
   "note": "ARM ABIs are C26; PowerPC objects need a big-endian ELF, see C25."
  },
  {
   "property": "C25",
   "status": "partial",
   "theorems": [
    "Verif.C25_refuted",
    "Verif.C25_matches_partial"
   ],
   "note": "False of the code: matches() asserts big endian on PowerPC. Partial: exact result for all other ELFs."
  },
  {
   "property": "C26",
   "status": "partial",
   "theorems": [
    "Verif.C26_refuted",
    "Verif.C26_abis_partial"
   ],
   "note": "False of the code: without sys_oabi_call_table the ABI is always oabi, e_flags are not looked at. Partial: exact result and when it is right."
  },
  {
   "property": "C27",
   "status": "proved",
   "theorems": [
    "Verif.C27_aliases",
    "Verif.C27_names",
    "Verif.supportedArchs_complete",
    "Verif.supportedArchs_rows"
   ],
   "note": ""
  },
  {
   "property": "C28",
   "status": "proved",
   "theorems": [
    "Verif.C28_one_of_two",
    "Verif.C28_compat",
    "Verif.C28_x86_abi_prefix",
    "Verif.C28_ppc64_dot"
   ],
   "note": ""
  },
  {
   "property": "C29",
   "status": "proved",
   "theorems": [
    "Verif.C29_roundtrip",
    "Verif.C29_entries"
   ],
   "note": ""
  },
  {
   "property": "C30",
   "status": "proved",
   "theorems": [
    "Verif.C30_unsized",
    "Verif.C30_unsized_eof"
   ],
   "note": "C30_unsized_eof: a table running into the end of the file raises struct.error."
  },
  {
   "property": "C31",
   "status": "proved",
   "theorems": [
    "Verif.C31_descriptors"
   ],
   "note": "Assumes the first entry can be read, as the code does."
  },
  {
   "property": "C32",
   "status": "proved",
   "theorems": [
    "Verif.C32_choice"
   ],
   "note": ""
  },
  {
   "property": "C33",
   "status": "partial",
   "theorems": [
    "Verif.C33_reproducible_refuted",
    "Verif.C33_reproducible_partial"
   ],
   "note": "False of the code with duplicate symbol names (the last row wins). Partial: distinct names."
  },
  {
   "property": "C34",
   "status": "proved",
   "theorems": [
    "Verif.C34_slot_increasing",
    "Verif.C34_numbers_increasing"
   ],
   "note": ""
  },
  {
   "property": "C35",
   "status": "proved",
   "theorems": [
    "Verif.C35_reported_iff",
    "Verif.C35_ni"
   ],
   "note": "The stages before (table, emulator) and the location finder are parameters constrained by EnvOk."
  },
  {
   "property": "C36",
   "status": "partial",
   "theorems": [
    "Verif.C36_unresolved_refuted",
    "Verif.C36_resolved_partial"
   ],
   "note": "False of the code: with an unresolved entry the assertion at kernel.py:496 always fails. Partial: success when all entries resolve."
  },
  {
   "property": "C37",
   "status": "partial",
   "theorems": [
    "Verif.C37_all_unimplemented_refuted",
    "Verif.C37_nothing_partial"
   ],
   "note": "False of the code: max() of no names raises ValueError. Partial: the cases that do return an empty list."
  },
  {
   "property": "C38",
   "status": "proved",
   "theorems": [
    "Verif.C38_x86_slots",
    "Verif.C38_x32_slots",
    "Verif.C38_other_slots"
   ],
   "note": "x32 indexes below 2^30."
  },
  {
   "property": "C39",
   "status": "proved",
   "theorems": [
    "Verif.C39_ppc_slots",
    "Verif.C39_no_loss"
   ],
   "note": ""
  },
  {
   "property": "C40",
   "status": "proved",
   "theorems": [
    "Verif.C40_arm",
    "Verif.C40_ppc",
    "Verif.C40_others"
   ],
   "note": ""
  },
  {
   "property": "C41",
   "status": "partial",
   "theorems": [
    "Verif.C41_x86_partial",
    "Verif.C41_x86_refuted",
    "Verif.C41_arm",
    "Verif.C41_mips",
    "Verif.C41_no_check"
   ],
   "note": "ARM and MIPS as stated. x86: false for the whole 64-bit register with the b8 form (C41_x86_refuted); proved for eax, and for rax with the 48 c7 c0 form. Functions cut off by the end of the file are excluded on x86 and MIPS."
  },
  {
   "property": "C42",
   "status": "partial",
   "theorems": [
    "Verif.C42_ppc_partial",
    "Verif.C42_refuted_stack",
    "Verif.C42_refuted_branch"
   ],
   "note": "False of the code in general. Partial: code of a plain shape (PlainPpcCode)."
  },
  {
   "property": "C43",
   "status": "partial",
   "theorems": [
    "Verif.C43_reference_partial",
    "Verif.C43_empty_reference_refuted"
   ],
   "note": "False of the code when the reference function has size 0."
  },
  {
   "property": "C44",
   "status": "proved",
   "theorems": [
    "Verif.C44_terminates"
   ],
   "note": ""
  },
  {
   "property": "C45",
   "status": "proved",
   "theorems": [
    "Verif.C45_exact",
    "Verif.C45_fresh_targets",
    "Verif.C45_flags_needed"
   ],
   "note": "The decoder is a parameter. A direct call counts as leaving the function (as in the code). C45_flags_needed shows the condition on flags cannot be dropped."
  },
  {
   "property": "C46",
   "status": "partial",
   "theorems": [
    "Verif.C46_order",
    "Verif.C46_keys",
    "Verif.C46_one_place",
    "Verif.C46_exact_partial",
    "Verif.C46_success",
    "Verif.C46_two_defaults_refuted",
    "Verif.C46_after_call_refuted",
    "Verif.C46_env_ok"
   ],
   "note": "False of the code when two different branches lead to the default case, or a branch is only reached by returning from a call: nothing is extracted. Partial: exact map otherwise; and whenever anything is extracted the map is exact (C46_success)."
  },
  {
   "property": "C47",
   "status": "proved",
   "theorems": [
    "Verif.C47_define_signature",
    "Verif.C47_define_no_arguments"
   ],
   "note": "Words of a type are separated by blanks; a lone star between two other stars (\"* * *\") is excluded because the code joins stars only pairwise. Definition texts end at the first line end that closes a parenthesis (Spells)."
  },
  {
   "property": "C48",
   "status": "proved",
   "theorems": [
    "Verif.C48_expand_macros",
    "Verif.C48_field_count",
    "Verif.C48_parse_signature"
   ],
   "note": ""
  },
  {
   "property": "C49",
   "status": "proved",
   "theorems": [
    "Verif.C49_asmlinkage",
    "Verif.C49_asmlinkage_void"
   ],
   "note": "Up to seven arguments, as the code asserts."
  },
  {
   "property": "C50",
   "status": "partial",
   "theorems": [
    "Verif.C50_terminates_refuted",
    "Verif.C50_terminates_partial",
    "Verif.C50_file_too_short"
   ],
   "note": "False of the code: without a line end closing a parenthesis the loop never ends (C50_terminates_refuted). Partial: exact condition for termination."
  },
  {
   "property": "C51",
   "status": "proved",
   "theorems": [
    "Verif.C51_ftrace_metadata",
    "Verif.C51_no_metadata"
   ],
   "note": "Same exclusion of \"* * *\" as C47; if two entries have the same name the last one is kept."
  },
  {
   "property": "C52",
   "status": "proved",
   "theorems": [
    "Verif.C52_signature_priority",
    "Verif.C52_no_error_without_location",
    "Verif.C52_only_source_errors"
   ],
   "note": "C52_only_source_errors: after location extraction neither the assertion nor the missing file and line cases can fire."
  },
  {
   "property": "C53",
   "status": "proved",
   "theorems": [
    "Verif.C53_good_locations",
    "Verif.C53_points_at_definition"
   ],
   "note": "C53_points_at_definition: for names made of word characters, in terms of the independent specification of definitions. A name with a dot is used as a regular expression by the code."
  },
  {
   "property": "C54",
   "status": "partial",
   "theorems": [
    "Verif.C54_definitions",
    "Verif.C54_macro_exact",
    "Verif.C54_function_exact_partial",
    "Verif.C54_other_name_refuted"
   ],
   "note": "The accepted texts are characterised exactly. False of the code for functions returning plain `unsigned` (type and name may be glued); proved for macros and for functions with another return type."
  },
  {
   "property": "C55",
   "status": "proved",
   "theorems": [
    "Verif.C55_never_down",
    "Verif.C55_signature",
    "Verif.C55_no_signature",
    "Verif.C55_unchanged",
    "Verif.C55_same_function",
    "Verif.C55_missing"
   ],
   "note": ""
  },
  {
   "property": "C56",
   "status": "proved",
   "theorems": [
    "Verif.C56_each_once",
    "Verif.C56_assignment",
    "Verif.C56_stable"
   ],
   "note": ""
  },
  {
   "property": "C57",
   "status": "partial",
   "theorems": [
    "Verif.C57_arch_macro_refuted",
    "Verif.C57_standard_macros_partial"
   ],
   "note": "False of the code: rows are matched with base_exp only, so arch-specific macros found by grepping are never used."
  },
  {
   "property": "C58",
   "status": "partial",
   "theorems": [
    "Verif.C58_inner_addresses_refuted",
    "Verif.C58_addresses_partial"
   ],
   "note": "False of the code: the range is exclusive, vaddr+size-2 is left out, and size 3 runs addr2line without addresses."
  },
  {
   "property": "C59",
   "status": "proved",
   "theorems": [
    "Verif.C59_rows"
   ],
   "note": "No symbolic links in the tree."
  },
  {
   "property": "C60",
   "status": "proved",
   "theorems": [
    "Verif.C60_locations_frame",
    "Verif.C60_signatures_frame",
    "Verif.C60_env_ok"
   ],
   "note": ""
  },
  {
   "property": "C61",
   "status": "proved",
   "theorems": [
    "Verif.C61_syscall_deps",
    "Verif.C61_any_tables",
    "Verif.C61_shipped",
    "Verif.C61_json"
   ],
   "note": ""
  },
  {
   "property": "C62",
   "status": "proved",
   "theorems": [
    "Verif.C62_edit_config",
    "Verif.C62_no_options",
    "Verif.C62_malformed"
   ],
   "note": ""
  },
  {
   "property": "C63",
   "status": "proved",
   "theorems": [
    "Verif.C63_check_deps"
   ],
   "note": "Assumes non-empty values to be set: an empty one counts as absent (kconfig.py:82 uses `or`). All shipped values are non-empty."
  },
  {
   "property": "C64",
   "status": "proved",
   "theorems": [
    "Verif.C64_parse_config",
    "Verif.C64_last",
    "Verif.C64_malformed"
   ],
   "note": ""
  },
  {
   "property": "C65",
   "status": "partial",
   "theorems": [
    "Verif.C65_variants_independent_refuted",
    "Verif.C65_variants_independent_partial"
   ],
   "note": "False in general: class-level tables are shared and mutated by constructors. Proved when all objects of the class are the same variant."
  },
  {
   "property": "C66",
   "status": "partial",
   "theorems": [
    "Verif.C66_restored_partial",
    "Verif.C66_one_character",
    "Verif.C66_restored_refuted"
   ],
   "note": "False of the code for a Makefile with carriage returns (read in text mode). Partial: exact restoration for every other content and every outcome."
  },
  {
   "property": "C67",
   "status": "partial",
   "theorems": [
    "Verif.C67_exact_partial",
    "Verif.C67_stock",
    "Verif.C67_restored_refuted",
    "Verif.C67_emptied"
   ],
   "note": "False of the code: the second attempt is not covered by the exit handler. Partial: exactly the points at which an interruption loses the Makefile."
  },
  {
   "property": "C68",
   "status": "proved",
   "theorems": [
    "Verif.C68_levels",
    "Verif.C68_stock"
   ],
   "note": "Makefiles without carriage returns."
  },
  {
   "property": "C69",
   "status": "proved",
   "theorems": [
    "Verif.C69_order",
    "Verif.C69_stops"
   ],
   "note": "All answers and interruption points."
  },
  {
   "property": "C70",
   "status": "proved",
   "theorems": [
    "Verif.C70_text"
   ],
   "note": "Paths without empty components, as pathlib makes them."
  },
  {
   "property": "C71",
   "status": "partial",
   "theorems": [
    "Verif.C71_json",
    "Verif.C71_no_tag"
   ],
   "note": "The output is read back by an independent JSON reader. False of the code for two-component versions: version_tag raises and nothing is written (C71_no_tag, see C18)."
  },
  {
   "property": "C72",
   "status": "partial",
   "theorems": [
    "Verif.C72_html_partial",
    "Verif.C72_argument",
    "Verif.C72_html_refuted",
    "Verif.C72_no_signature"
   ],
   "note": "False of the code when all known signatures are empty (colspan=\"0\" covers one column). Partial: some known signature has an argument. Without any known signature the program fails (C72_no_signature, excluded by the property)."
  },
  {
   "property": "C73",
   "status": "proved",
   "theorems": [
    "Verif.C73_invalid",
    "Verif.C73_help"
   ],
   "note": ""
  },
  {
   "property": "C74",
   "status": "partial",
   "theorems": [
    "Verif.C74_commands",
    "Verif.C74_auto_ignored",
    "Verif.C74_checkout_refuted"
   ],
   "note": "False of the code: --checkout auto is ignored with --build/--config/--clean. Partial: everything else in the statement, for all command lines and environments."
  },
  {
   "property": "C75",
   "status": "partial",
   "theorems": [
    "Verif.C75_clean_partial",
    "Verif.C75_clean_fails",
    "Verif.C75_clean_refuted"
   ],
   "note": "False of the code: without --arch the constructor raises ValueError. Partial: with --arch, up to the AssertionError for an unsupported version."
  },
  {
   "property": "C76",
   "status": "proved",
   "theorems": [
    "Verif.C76_levels",
    "Verif.C76_messages"
   ],
   "note": ""
  },
  {
   "property": "C77",
   "status": "proved",
   "theorems": [
    "Verif.C77_exit",
    "Verif.C77_status",
    "Verif.C77_others",
    "Verif.C77_checked",
    "Verif.C77_old_version"
   ],
   "note": "C77_old_version: a version older than the architecture supports is not among the handled errors (AssertionError)."
  },
  {
   "property": "C78",
   "status": "proved",
   "theorems": [
    "Verif.C78_consistent"
   ],
   "note": ""
  },
  {
   "property": "C79",
   "status": "partial",
   "theorems": [
    "Verif.C79_missing_debug_info_refuted",
    "Verif.C79_known_last_partial"
   ],
   "note": "False of the code: location.py:409 evaluates rel(None) when the last inner address has no file and an earlier one had a wrong location. Partial: the step never raises that error when the last address is known."
  },
  {
   "property": "C80",
   "status": "partial",
   "theorems": [
    "Verif.C80_input_refuted",
    "Verif.C80_input_partial"
   ],
   "note": "False of the code: Popen is called without stdin=PIPE, so communicate() drops the input. Partial: from 3.7 on no command is given input."
  },
  {
   "property": "C81",
   "status": "partial",
   "theorems": [
    "Verif.C81_same_config_refuted",
    "Verif.C81_same_config_partial"
   ],
   "note": "False of the code for relative paths. Partial: absolute paths."
  },
  {
   "property": "C82",
   "status": "proved",
   "theorems": [
    "Verif.C82_dependencies_consistent"
   ],
   "note": ""
  },
  {
   "property": "C83",
   "status": "proved",
   "theorems": [
    "Verif.C83_paths"
   ],
   "note": "About the list that C84_output shows to be the printed one."
  },
  {
   "property": "C84",
   "status": "proved",
   "theorems": [
    "Verif.C84_output"
   ],
   "note": ""
  },
  {
   "property": "C85",
   "status": "proved",
   "theorems": [
    "Verif.C85_summary"
   ],
   "note": ""
  },
  {
   "property": "C86",
   "status": "partial",
   "theorems": [
    "Verif.C86_build_targets_partial",
    "Verif.C86_build_targets_refuted",
    "Verif.C86_arm_v3_7",
    "Verif.C86_same_configuration"
   ],
   "note": "False of the code: note [2] of the help says defconfig for Linux <= v3.7 on arm, but multi_v7_defconfig is used from v3.7 on. Partial: every other row and version."
  },
  {
   "property": "C87",
   "status": "partial",
   "theorems": [
    "Verif.C87_sections_partial",
    "Verif.C87_lookup",
    "Verif.C87_debug_info",
    "Verif.C87_sections_refuted"
   ],
   "note": "False of the code: a section whose name has a character other than letters, digits, _ and . is not seen. Partial: all other names; C87_lookup says exactly what is found."
  },
  {
   "property": "C88",
   "status": "proved",
   "theorems": [
    "Verif.C88_json_run",
    "Verif.C88_run",
    "Verif.C88_image"
   ],
   "note": "Composition of C84, C35, C34, C60 and C71 over the whole program. C88_image: which image it is."
  },
  {
   "property": "C89",
   "status": "proved",
   "theorems": [
    "Verif.C89_origin",
    "Verif.C89_no_sources",
    "Verif.C89_no_addr2line"
   ],
   "note": "addr2line is assumed to print one row per address."
  },
  {
   "property": "C90",
   "status": "partial",
   "theorems": [
    "Verif.C90_remap_partial",
    "Verif.C90_remap_refuted"
   ],
   "note": "False of the code: with a relative KDIR, or RDIR above KDIR, a path below the directory of the image gets KDIR twice. Partial: KDIR absolute or the current directory, RDIR equal to KDIR or apart from it."
  },
  {
   "property": "C91",
   "status": "proved",
   "theorems": [
    "Verif.C91_text_run",
    "Verif.C91_html_run",
    "Verif.C91_locations",
    "Verif.C88_run"
   ],
   "note": "addr2line is assumed to print one row per address (text, locations)."
  },
  {
   "property": "C92",
   "status": "partial",
   "theorems": [
    "Verif.C92_argument_count",
    "Verif.C92_metadata",
    "Verif.C92_metadata_no_end",
    "Verif.C92_macro_fields",
    "Verif.C92_no_macros_partial",
    "Verif.C92_unknown_macro_refuted"
   ],
   "note": "False of the code for definitions that also call a known macro: parentheses elsewhere are not looked for. Partial: no parentheses when no known macro is named; counts, macros and prototypes in full."
  },
  {
   "property": "C93",
   "status": "proved",
   "theorems": [
    "Verif.C93_edited_file",
    "Verif.C93_logged",
    "Verif.C93_configure",
    "Verif.C93_shipped_options"
   ],
   "note": "scripts/config is specified in Spec/ConfigTool (setting, state, upper-casing of names); names are not taken as regular expressions, which is harmless for the shipped ones."
  },
  {
   "property": "C94",
   "status": "proved",
   "theorems": [
    "Verif.C94_command_line",
    "Verif.C94_one_meaning",
    "Verif.C94_help",
    "Verif.C94_version",
    "Verif.C94_ambiguous",
    "Verif.C94_help_asked",
    "Verif.C94_version_asked",
    "Verif.C94_negative",
    "Verif.C94_run"
   ],
   "note": "argparse as of CPython 3.11/3.12; the texts of the help, version and usage messages are not modelled."
  },
  {
   "property": "C95",
   "status": "proved",
   "theorems": [
    "Verif.C95_failed_commands",
    "Verif.C95_command_line",
    "Verif.C95_built"
   ],
   "note": "addr2line and rg, run while extracting locations, are not in the history of commands."
  },
  {
   "property": "C96",
   "status": "partial",
   "theorems": [
    "Verif.C96_spu_numbers_partial",
    "Verif.C96_spu_before_5",
    "Verif.C96_spu_numbers_refuted"
   ],
   "note": "False of the code before v5.0: the table of the SPU is taken for an interleaved one. Partial: from v5.0 on. That spu_syscall_table has one entry per number is a fact about Linux (arch/powerpc/platforms/cell/spu_callbacks.c), not in the repository."
  },
  {
   "property": "C97",
   "status": "proved",
   "theorems": [
    "Verif.C97_clicks",
    "Verif.C97_always_sorted",
    "Verif.C97_back",
    "Verif.C97_direction",
    "Verif.C97_text_order",
    "Verif.C97_run"
   ],
   "note": "Array.prototype.sort is a stable sort (ECMAScript 2019). Numbers from 2^53 on, read as hexadecimal, would be rounded."
  },
  {
   "property": "C98",
   "status": "proved",
   "theorems": [
    "Verif.C98_run"
   ],
   "note": "For dispatch functions of the form of C45 (GoodSwitch). The instruction decoder (iced-x86) and the iteration orders of sets are parameters."
  },
  {
   "property": "C99",
   "status": "partial",
   "theorems": [
    "Verif.C99_same",
    "Verif.C99_told",
    "Verif.C99_fatal",
    "Verif.C99_empty_partial",
    "Verif.C99_empty_refuted",
    "Verif.C99_lost",
    "Verif.C99_lost_refuted",
    "Verif.C99_header_partial",
    "Verif.C99_header_refuted"
   ],
   "note": "Refuted in four places: an analysis whose entries are all dummies or skipped ends with nothing and no error (C99_empty_refuted); the warning about table addresses outside the code has arguments not matching its format, so a traceback is shown instead, and the check of the most frequent entry compares integers with symbols and never reports (C99_lost, C99_lost_refuted); the message about an invalid class shows the byte order (C99_header_refuted). The messages of extract_syscall_vaddrs (x86) and of the location and signature modules are left out."
  }
 ]
}