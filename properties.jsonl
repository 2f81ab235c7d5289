{"id": "C01", "title": "Prefix/suffix stripping removes exactly the first matching affix", "statement": "noprefix(s, p1..pn) returns s unchanged when s starts with none of the prefixes; otherwise, for the FIRST pi (argument order) that s starts with, pi + noprefix(s, ...) == s. nosuffix is the mirror image for non-empty suffixes. Nothing else of the string is ever changed.", "quantifier": "every string s and every list of prefixes/suffixes, any lengths", "why_tests_cant": "The set of strings and affix lists is infinite; order of affixes that are prefixes of each other matters.", "anchors": ["src/systrack/utils.py: noprefix", "src/systrack/utils.py: nosuffix", "src/systrack/utils.py: anyprefix", "src/systrack/utils.py: anysuffix"]}
{"id": "C02", "title": "VersionedDict answers lookups as the documented range map, for every history of add and lookup", "statement": "After any sequence of add(vstart, vend, key, value) calls and lookups, the first lookup d[v] of a version returns for each key the value last assigned in the most recently created range [vstart, vend) containing v that defines key (no entry if there is none); later lookups of the same v return the same dict.", "quantifier": "every interleaved history of add and [] operations, every version, every key", "why_tests_cant": "It is a property of all operation histories, including overlapping ranges and repeated keys.", "anchors": ["src/systrack/utils.py: VersionedDict"]}
{"id": "C03", "title": "VersionedDict/VersionedList additions are always visible to later lookups", "statement": "A value added for a range of versions with add() is returned by every later lookup of a version in that range, whatever was looked up before.", "quantifier": "every history of add and [] operations", "why_tests_cant": "Visibility after caching depends on the whole history of previous lookups.", "anchors": ["src/systrack/utils.py: VersionedDict.__getitem__", "src/systrack/utils.py: VersionedDict.add", "src/systrack/utils.py: VersionedList.__getitem__"]}
{"id": "C04", "title": "VersionedList returns exactly the values of the ranges containing the version, grouped by range in creation order", "statement": "After any sequence of add(vstart, vend, values) calls and lookups, the first lookup lst[v] is the concatenation, in range creation order, of the values given so far for each range [vstart, vend) with vstart <= v < vend, and later lookups of v return the same list; a value is present iff some add/initial entry listed it for a range containing v.", "quantifier": "every list of initial entries, every interleaved history of add and [] operations, every version", "why_tests_cant": "Unbounded number of entries, ranges and versions.", "anchors": ["src/systrack/utils.py: VersionedList"]}
{"id": "C05", "title": "Shipped Kconfig tables are unambiguous at every kernel version", "statement": "For the shipped KCONFIG_SYSCALL_DEPS, KCONFIG_MORE_SYSCALLS and arch tables, for every kernel version whatsoever (any number of components) and every key, all entries whose range contains the version agree on the value; hence the answer does not depend on entry order.", "quantifier": "every kernel version tuple (infinitely many) and every key of the shipped tables", "why_tests_cant": "Versions are an infinite totally ordered set; tests can only sample versions.", "anchors": ["src/systrack/kconfig_options.py: KCONFIG_SYSCALL_DEPS", "src/systrack/kconfig_options.py: KCONFIG_MORE_SYSCALLS", "src/systrack/utils.py: VersionedDict"]}
{"id": "C06", "title": "Paths inside the root are relativised, all other paths are left alone", "statement": "maybe_rel(root / r, root) == r for every relative r; when path is not under root (or root is None) the very same path is returned; joining the result back under root gives the original path.", "quantifier": "every path and every root, any depth, absolute or relative", "why_tests_cant": "Infinite path space; component-wise (not string-wise) prefix matters.", "anchors": ["src/systrack/utils.py: maybe_rel", "src/systrack/location.py: extract_syscall_locations (remap)", "src/systrack/__main__.py: main"]}
{"id": "C07", "title": "format_duration shows the exact number of whole seconds", "statement": "The printed h/m/s fields satisfy 3600*h + 60*m + s == the whole number closest to the duration (the even one of two) with m, s < 60; a unit is shown iff it or a larger unit is non-zero (seconds always); units after the first have two digits and the first has no leading zero; durations with different whole numbers print differently.", "quantifier": "every non-negative number of seconds, whole or not", "why_tests_cant": "Unbounded integers; injectivity relates pairs of inputs.", "anchors": ["src/systrack/utils.py: format_duration"]}
{"id": "C08", "title": "Logged command lines can be pasted back into a POSIX shell", "statement": "For every list of arguments, POSIX word splitting and quote removal applied to command_argv_to_string(argv) yields exactly argv, byte strings decoded as UTF-8; it only fails for a byte string that is not UTF-8.", "quantifier": "every list of strings, paths and byte strings", "why_tests_cant": "Round trip over all strings, including quotes, spaces and metacharacters.", "anchors": ["src/systrack/utils.py: command_argv_to_string"]}
{"id": "C09", "title": "ELF identification decodes class, endianness and machine of every header", "statement": "For every ELF header serialised according to the ELF spec (32/64-bit, little/big endian) ELF(path).bits32, .big_endian and .e_machine equal the encoded values; an invalid class or data byte terminates with exit status 1 and never yields an object.", "quantifier": "every header field combination and any trailing file content", "why_tests_cant": "Round trip over all encodings.", "anchors": ["src/systrack/elf.py: ELF.__init__"]}
{"id": "C10", "title": "ELF e_flags is the header e_flags field", "statement": "ELF(path).e_flags equals the e_flags field of the ELF header, for 32-bit and 64-bit files.", "quantifier": "every header", "why_tests_cant": "Needs all encodings of both classes.", "anchors": ["src/systrack/elf.py: ELF.__init__"]}
{"id": "C11", "title": "Every symbol row printed by readelf is parsed into exactly its fields", "statement": "For every row \"<num>: <hexaddr> <decsize> <TYPE> <BIND> <VIS> <NDX> <name>\" with arbitrary spacing, the parsed symbol has that address, size, type and name; lines without that shape are ignored.", "quantifier": "every address, size, type word, number of blanks and non-blank name", "why_tests_cant": "Infinite row space; greedy/backtracking regular expression could split elsewhere.", "anchors": ["src/systrack/elf.py: ELF.__extract_symbols"]}
{"id": "C12", "title": "Thumb bit is cleared exactly for odd-addressed ARM functions", "statement": "real_vaddr == vaddr for every symbol except FUNC symbols with odd address in an EM_ARM ELF, for which real_vaddr == vaddr - 1 (32-bit addresses); real_vaddr is then even. Symbol lookup by name returns the last row of that name.", "quantifier": "every symbol row and every machine", "why_tests_cant": "All addresses and machines.", "anchors": ["src/systrack/elf.py: ELF.__extract_symbols"]}
{"id": "C13", "title": "Virtual addresses are translated to the file offset of the containing section", "statement": "vaddr_to_file_offset(va) succeeds iff some known section contains va; when one section contains va the offset is off + (va - vaddr) of that section and is independent of section order; vaddr_read(va, n) inside a section returns exactly bytes va..va+n of the section image; read_symbol(name) returns the bytes of the symbol of that name, starting at its real address, or raises KeyError.", "quantifier": "every section list, address and length", "why_tests_cant": "Unbounded section tables and addresses.", "anchors": ["src/systrack/elf.py: ELF.vaddr_to_file_offset", "src/systrack/elf.py: ELF.vaddr_read", "src/systrack/elf.py: ELF.read_symbol"]}
{"id": "C14", "title": "String reads return the bytes up to the first NUL", "statement": "vaddr_read_string(va) returns the bytes from va up to, not including, the first NUL byte at or after it, decoded as strict UTF-8, whenever there is one in the file; UnicodeDecodeError if they are not UTF-8.", "quantifier": "every file content and offset", "why_tests_cant": "Unbounded strings.", "anchors": ["src/systrack/elf.py: ELF.vaddr_read_string"]}
{"id": "C15", "title": "String reads always terminate", "statement": "vaddr_read_string(va) terminates for every file and every mapped address.", "quantifier": "every file content and mapped address", "why_tests_cant": "Termination cannot be tested.", "anchors": ["src/systrack/elf.py: ELF.vaddr_read_string"]}
{"id": "C16", "title": "next_symbol is the closest following symbol by real address", "statement": "next_symbol(s) returns a symbol with real address above that of s such that no other symbol lies strictly between (by real address), and None iff no symbol lies above; despite the code minimising vaddr rather than real_vaddr.", "quantifier": "every symbol table produced by the parser", "why_tests_cant": "All symbol tables, with and without Thumb symbols.", "anchors": ["src/systrack/elf.py: ELF.next_symbol"]}
{"id": "C17", "title": "Kernel version strings parse to their numbers", "statement": "version_from_str(\"A.B.C<rest>\") == (A, B, C) and version_from_str(\"A.B<rest>\") == (A, B) (rest not continuing the number), for all numbers; strings not starting with digits.digits give None; version_from_banner additionally requires the \"Linux version \" prefix. The version of an image is that of its linux_banner symbol: its bytes if the size is known, otherwise the bytes up to the next NUL; without one, KernelVersionError.", "quantifier": "every triple of numbers and every trailing text", "why_tests_cant": "Infinite inputs, optional third component.", "anchors": ["src/systrack/kernel.py: Kernel.version_from_str", "src/systrack/kernel.py: Kernel.version_from_banner"]}
{"id": "C18", "title": "version_tag names the git tag of the kernel version", "statement": "For every detected version, version_tag is \"vA.B\" when the third component is 0 and \"vA.B.C\" otherwise.", "quantifier": "every version that version_from_str can return", "why_tests_cant": "All versions.", "anchors": ["src/systrack/kernel.py: Kernel.version_tag"]}
{"id": "C19", "title": "Version comparison is a total order compatible with half-open ranges", "statement": "Version tuples are totally ordered lexicographically (a shorter tuple precedes its extensions), so for vstart <= vmid <= vend every version in [vstart, vend) is in exactly one of [vstart, vmid) and [vmid, vend).", "quantifier": "every tuple of any length", "why_tests_cant": "Infinite order.", "anchors": ["src/systrack/utils.py: VersionedDict.__getversion", "src/systrack/type_hints.py: KernelVersion"]}
{"id": "C20", "title": "Common symbol prefixes are exactly the frequent \"xxx_\" prefixes, longest first", "statement": "common_syscall_symbol_prefixes(names, t) (t >= 1, names non-empty) contains p iff len(p) >= 2, p ends with \"_\" and at least t of the names start with p; no duplicates; lengths never increase along the list.", "quantifier": "every list of names and every threshold", "why_tests_cant": "Characterisation over all lists.", "anchors": ["src/systrack/syscall.py: common_syscall_symbol_prefixes"]}
{"id": "C21", "title": "The longest common prefix is the one stripped from a symbol name", "statement": "When a syscall name is derived, among the common prefixes matching the name the longest is removed, and a name matching none is unchanged.", "quantifier": "every name and list of names", "why_tests_cant": "Interaction of two functions over all lists.", "anchors": ["src/systrack/syscall.py: common_syscall_symbol_prefixes", "src/systrack/kernel.py: Kernel.__extract_syscalls", "src/systrack/utils.py: noprefix"]}
{"id": "C22", "title": "Reported syscall names are always contiguous pieces of the symbol name", "statement": "For every architecture, ABI and symbol, both the original name and the normalised name reported for a syscall are contiguous substrings of the ELF symbol name; names are only ever shortened, never rewritten.", "quantifier": "every architecture/ABI and every symbol name", "why_tests_cant": "Chains of strip operations over all strings and archs.", "anchors": ["src/systrack/arch/arch_base.py: Arch.translate_syscall_symbol_name", "src/systrack/arch/arch_base.py: Arch.normalize_syscall_name", "src/systrack/arch/x86.py", "src/systrack/arch/arm.py", "src/systrack/arch/powerpc.py", "src/systrack/arch/mips.py", "src/systrack/arch/arm64.py"]}
{"id": "C23", "title": "Y2038 suffixes are removed on every architecture, plain names are untouched", "statement": "normalize_syscall_name(n + \"_time32\") and (n + \"_time64\") both normalise as n; \"...time32\"/\"...time64\" lose only the two digits; a name with none of the listed prefixes/suffixes is returned unchanged.", "quantifier": "every base name, every architecture", "why_tests_cant": "All names.", "anchors": ["src/systrack/arch/arch_base.py: Arch.normalize_syscall_name"]}
{"id": "C24", "title": "Architecture autodetection is unambiguous and accepted by the selected class", "statement": "At most one Arch class matches an ELF; if autodetection succeeds with a class, bitness and ABI list then instantiating that class with the first detected ABI gives an object whose matches() accepts the ELF (except little-endian PowerPC).", "quantifier": "every ELF header and symbol table, every supported version", "why_tests_cant": "Relates two independent predicates over all ELFs.", "anchors": ["src/systrack/arch/__init__.py: arch_from_vmlinux", "src/systrack/kernel.py: Kernel.__init__", "src/systrack/arch/*.py: match, matches"]}
{"id": "C25", "title": "PowerPC kernels of either endianness are handled without crashing in matches()", "statement": "matches() returns a boolean for every ELF (e.g. a little-endian 64-bit PowerPC kernel is recognised as ppc64).", "quantifier": "every ELF", "why_tests_cant": "All ELFs.", "anchors": ["src/systrack/arch/powerpc.py: ArchPowerPC.matches"]}
{"id": "C26", "title": "ARM kernels with an EABI marker and no OABI table are autodetected as EABI", "statement": "For an EM_ARM ELF without sys_oabi_call_table, the detected ABI is eabi iff the EABI bits of e_flags are set.", "quantifier": "every ARM ELF", "why_tests_cant": "All ELFs.", "anchors": ["src/systrack/arch/arm.py: ArchArm.match"]}
{"id": "C27", "title": "Every --arch alias denotes the same architecture as its canonical name", "statement": "For every alias and every kernel version, arch_from_name(alias, v) and arch_from_name(canonical, v) have the same attributes, and the attributes (arch, kernel bits, ABI bits, ABI, compat) are those in the --arch help table, independent of the version.", "quantifier": "every supported name/alias, every kernel version accepted by the constructors", "why_tests_cant": "All versions.", "anchors": ["src/systrack/arch/__init__.py: SUPPORTED_ARCHS", "src/systrack/arch/__init__.py: ARCH_ALIASES", "src/systrack/arch/*.py: __init__"]}
{"id": "C28", "title": "preferred_symbol always returns one of its two arguments and respects the ABI", "statement": "For every arch and pair of symbols the result is one of the two. With exactly one \"compat\" symbol (arm, arm64, mips, riscv) the result is the compat one iff analysing a compat ABI, whatever the argument order. On x86 a symbol with the prefix of the analysed ABI wins over one without it.", "quantifier": "every pair of symbols, every arch", "why_tests_cant": "All pairs of names.", "anchors": ["src/systrack/arch/arch_base.py: Arch.preferred_symbol", "src/systrack/arch/arch_base.py: Arch.prefer_compat", "src/systrack/arch/x86.py: ArchX86.preferred_symbol", "src/systrack/arch/powerpc.py: ArchPowerPC.preferred_symbol"]}
{"id": "C29", "title": "A sized syscall table is decoded entry by entry", "statement": "If the table symbol is larger than 0x80 bytes and the file contains it, entry i is the pointer-sized integer stored (in the ELF byte order) at table offset + i * pointer size, for exactly size / pointer size entries; encoding any list of addresses and decoding gives it back.", "quantifier": "every list of table entries, both word sizes and byte orders", "why_tests_cant": "Unbounded tables.", "anchors": ["src/systrack/kernel.py: Kernel.__unpack_syscall_table", "src/systrack/kernel.py: Kernel.__iter_unpack_vmlinux"]}
{"id": "C30", "title": "An unsized syscall table is read as the longest valid prefix before the next symbol", "statement": "If the table symbol has a bad size (<= 0x80), the entries returned are exactly the leading entries that point into the target section and start before the next symbol; reading stops at the first violation and never goes past it.", "quantifier": "every file content, section, next-symbol position", "why_tests_cant": "Unbounded tables.", "anchors": ["src/systrack/kernel.py: Kernel.__unpack_syscall_table"]}
{"id": "C31", "title": "Function descriptors are dereferenced exactly once when needed", "statement": "On PowerPC64: if the first table entry points into .text entries are used directly; otherwise each entry i maps to the pointer stored at descriptor i; without .opd the result is empty.", "quantifier": "every ELF image", "why_tests_cant": "All images.", "anchors": ["src/systrack/kernel.py: Kernel.__syscall_vaddrs_from_syscall_table"]}
{"id": "C32", "title": "The symbol chosen for an address is a real symbol at that address and ni_syscall is never overridden", "statement": "For every address in the table with at least one symbol, the chosen symbol is one of the ELF symbols at that address, and it is a ni_syscall symbol iff some ni_syscall symbol is at that address.", "quantifier": "every symbol table and table contents, every arch", "why_tests_cant": "Fold over unbounded symbol tables.", "anchors": ["src/systrack/kernel.py: Kernel.__extract_syscalls"]}
{"id": "C33", "title": "Symbol choice is reproducible", "statement": "The symbol chosen for each implemented syscall address does not depend on the order of rows in the ELF symbol table nor on set/hash iteration order.", "quantifier": "every permutation of the symbol table and of the ni_syscall set", "why_tests_cant": "All permutations and hash seeds.", "anchors": ["src/systrack/kernel.py: Kernel.__extract_syscalls"]}
{"id": "C34", "title": "Reported syscall numbers are unique and listed in increasing order", "statement": "Syscalls extracted from the table (all but esoteric ones) have strictly increasing numbers, on every architecture/ABI and kernel version, including interleaved PowerPC tables.", "quantifier": "every table, arch, ABI and version", "why_tests_cant": "All tables; PowerPC halves numbers so uniqueness relies on the skip rule.", "anchors": ["src/systrack/kernel.py: Kernel.__extract_syscalls", "src/systrack/arch/powerpc.py: ArchPowerPC.adjust_syscall_number", "src/systrack/arch/powerpc.py: ArchPowerPC.skip_syscall"]}
{"id": "C35", "title": "Exactly the implemented table entries are reported", "statement": "A table index is reported iff its address has a symbol, that symbol is not ni_syscall, the ABI does not skip it, its code is not a dummy, and its unresolved location is not kernel/sys_ni.c; the reported entry carries the index, base+index number and the symbol at that address.", "quantifier": "every ELF image, arch and oracle answers", "why_tests_cant": "Functional correctness over all tables.", "anchors": ["src/systrack/kernel.py: Kernel.__extract_syscalls"]}
{"id": "C36", "title": "A table entry without symbol is reported and skipped, extraction goes on", "statement": "If some table address has no symbol, extraction logs an error and still returns the other syscalls.", "quantifier": "every table containing an unresolvable address", "why_tests_cant": "All tables.", "anchors": ["src/systrack/kernel.py: Kernel.__extract_syscalls"]}
{"id": "C37", "title": "A table with only unimplemented entries yields an empty result instead of a crash", "statement": "If every table entry resolves to ni_syscall (or to nothing), the result is the empty list (plus esoteric syscalls).", "quantifier": "every such table", "why_tests_cant": "All tables.", "anchors": ["src/systrack/kernel.py: Kernel.__extract_syscalls", "src/systrack/syscall.py: common_syscall_symbol_prefixes"]}
{"id": "C38", "title": "x86 ABI number rules", "statement": "x64 never reports numbers 512..547; every x32 number has bit 30 set and equals 0x40000000 + index; before v5.4 x32 never reports a number marked 64-only and from v5.4 on nothing is skipped; 64-bit ia32 never reports 113/166 and 32-bit never reports 380..382.", "quantifier": "every index and version", "why_tests_cant": "All indexes and versions.", "anchors": ["src/systrack/arch/x86.py: ArchX86.skip_syscall", "src/systrack/arch/x86.py: ArchX86.__init__"]}
{"id": "C39", "title": "Interleaved PowerPC tables are split without loss", "statement": "On 64-bit PowerPC before v5.0 every table index is kept by exactly one of the ppc64 and ppc32 analyses, index 2k is ppc64 number k and 2k+1 is ppc32 number k; from v5.0 on nothing is skipped and number == index.", "quantifier": "every index and version", "why_tests_cant": "All indexes.", "anchors": ["src/systrack/arch/powerpc.py: ArchPowerPC.skip_syscall", "src/systrack/arch/powerpc.py: ArchPowerPC.adjust_syscall_number"]}
{"id": "C40", "title": "Esoteric syscalls are only added when present", "statement": "ARM: iff the arm_syscall function exists, with numbers base + 0xf0000 + 1..5 (+6 from v4.15), and the names and parameters of the private syscalls of Linux. PowerPC: at most switch_endian (0x1ebe, depending on PPC_FAST_ENDIAN_SWITCH from v4.15), only for ppc64 before v6.12 and only if the documented instruction sequence occurs in order in the system call vector. Other archs: none.", "quantifier": "every ELF, ABI and version", "why_tests_cant": "All instruction sequences.", "anchors": ["src/systrack/arch/arm.py: ArchArm.extract_esoteric_syscalls", "src/systrack/arch/powerpc.py: ArchPowerPC.extract_esoteric_syscalls"]}
{"id": "C41", "title": "A syscall is only discarded as dummy if its code really just returns an error (x86, ARM, MIPS)", "statement": "If the arch-specific check discards a syscall, executing its code returns -ENOSYS or -EINVAL in the return register (up to the tail jump to the return thunk on x86) and does nothing else.", "quantifier": "every code byte string", "why_tests_cant": "All byte strings, via instruction semantics.", "anchors": ["src/systrack/arch/x86.py: ArchX86._dummy_syscall_code", "src/systrack/arch/arm.py: ArchArm._dummy_syscall_code", "src/systrack/arch/mips.py: ArchMips._dummy_syscall_code"]}
{"id": "C42", "title": "A PowerPC syscall is only discarded as dummy if its code really just returns -ENOSYS", "statement": "If the PowerPC check discards a syscall then executing its code returns -38 with the stack pointer restored.", "quantifier": "every instruction sequence", "why_tests_cant": "All instruction sequences.", "anchors": ["src/systrack/arch/powerpc.py: ArchPowerPC._dummy_syscall_code"]}
{"id": "C43", "title": "Matching the reference ni_syscall code only discards syscalls with the same code", "statement": "A syscall is discarded by reference matching only if it has the same real address as the reference ni_syscall or its leading bytes equal the (non-empty) reference code.", "quantifier": "every syscall, reference symbol and image", "why_tests_cant": "All images.", "anchors": ["src/systrack/arch/arch_base.py: Arch.is_dummy_syscall", "src/systrack/kernel.py: Kernel.__extract_syscalls"]}
{"id": "C44", "title": "The x86 switch analysis terminates", "statement": "The symbolic pass loop over a dispatch function ends after finitely many passes, bounded by number of instructions * 4096 + 1, for every instruction sequence.", "quantifier": "every decoded instruction list", "why_tests_cant": "Termination for all programs with backward branches.", "anchors": ["src/systrack/arch/x86.py: ArchX86.__emulate_syscall_switch"]}
{"id": "C45", "title": "The x86 switch analysis is exact with respect to execution", "statement": "For every dispatch function made of compares of the number register, conditional/unconditional jumps, calls and neutral instructions in which flags consumed by a jump are those of the textually preceding compare, a number n < 4096 is attributed to an outside target t iff running the function with number n leaves it to t.", "quantifier": "every such program and every number", "why_tests_cant": "All programs: abstract interpretation vs concrete semantics.", "anchors": ["src/systrack/arch/x86.py: ArchX86.__emulate_syscall_switch"]}
{"id": "C46", "title": "The extracted number->address map is deterministic and conflict free", "statement": "extract_syscall_vaddrs does not depend on the iteration order of the candidate set; when the analysis is exact no number leads to two addresses, and the map sends n to t iff executing with n dispatches to t and t is not the default case.", "quantifier": "every iteration order, every program", "why_tests_cant": "All hash orders and programs.", "anchors": ["src/systrack/arch/x86.py: ArchX86.extract_syscall_vaddrs"]}
{"id": "C47", "title": "SYSCALL_DEFINEn signatures are recovered exactly", "statement": "For every list of up to six (type, name) pairs written as SYSCALL_DEFINEn(name, t1, a1, ...) on any number of lines with arbitrary indentation, the reported signature is [\"t1 a1\", ...] in order (\"t*a\" without space after a pointer star), with __user removed.", "quantifier": "every argument list and line layout", "why_tests_cant": "Round trip over unbounded texts.", "anchors": ["src/systrack/signature.py: syscall_signature_from_source", "src/systrack/signature.py: parse_signature"]}
{"id": "C48", "title": "64-bit argument macros expand to two 32-bit halves in the right order", "statement": "Each SC_ARG64/arg_u32p/compat_arg_u64[_dual](x) becomes x_lo,x_hi on little endian and x_hi,x_lo on big endian, in place; all other arguments are kept in order; the number of fields is fields + 3 * macros.", "quantifier": "every argument list and endianness", "why_tests_cant": "Unbounded argument lists.", "anchors": ["src/systrack/signature.py: expand_macros", "src/systrack/signature.py: parse_signature"]}
{"id": "C49", "title": "asmlinkage prototypes are recovered exactly", "statement": "For every \"asmlinkage ... f(args)\" prototype the reported signature is the comma separated list of trimmed arguments with __user removed; \"(void)\" and \"()\" give the empty signature.", "quantifier": "every prototype", "why_tests_cant": "Unbounded texts.", "anchors": ["src/systrack/signature.py: syscall_signature_from_source"]}
{"id": "C50", "title": "Signature reading terminates for every source file", "statement": "syscall_signature_from_source terminates for every file and line.", "quantifier": "every file and line number", "why_tests_cant": "Termination.", "anchors": ["src/systrack/signature.py: syscall_signature_from_source"]}
{"id": "C51", "title": "ftrace syscall metadata is decoded exactly", "statement": "For every memory image containing syscall metadata laid out as in the kernel (32/64-bit, either byte order) the name -> signature map contains for each metadata entry exactly the argument types and names in order.", "quantifier": "every list of metadata entries, word size and endianness", "why_tests_cant": "Round trip over all images.", "anchors": ["src/systrack/signature.py: extract_syscall_signatures"]}
{"id": "C52", "title": "Source code signatures win over ftrace metadata, esoteric ones are untouched", "statement": "A syscall with a good location gets the source signature; otherwise the metadata entry of its original name, else of its name, else nothing changes; esoteric syscalls keep their signature; the \"good location with no source\" assertion never fires.", "quantifier": "every list of syscalls and metadata", "why_tests_cant": "All combinations.", "anchors": ["src/systrack/signature.py: extract_syscall_signatures", "src/systrack/location.py: extract_syscall_locations"]}
{"id": "C53", "title": "A location not marked doubtful always points at a definition of that very syscall", "statement": "After location extraction, every syscall with good_location has file and line whose text matches the definition patterns for its name or original name; without kernel sources no location is ever marked good; grepped locations are good locations.", "quantifier": "every list of syscalls, addr2line answers, file system contents", "why_tests_cant": "Whole pipeline over all oracle answers.", "anchors": ["src/systrack/location.py: extract_syscall_locations", "src/systrack/location.py: good_location"]}
{"id": "C54", "title": "A definition is never accepted for a different syscall name", "statement": "good_definition(arch, text, name) implies that text starts with a SYSCALL_DEFINE-like macro whose first argument is exactly name (not a prefix of a longer identifier) or is an asmlinkage function named after name; conversely the canonical texts are accepted.", "quantifier": "every text, every identifier name, every arch", "why_tests_cant": "All texts, via regex semantics.", "anchors": ["src/systrack/location.py: good_definition", "src/systrack/arch/*.py: syscall_def_regexp"]}
{"id": "C55", "title": "Line adjustment moves to the enclosing function signature, never down and never into another function", "statement": "adjust_line(file, line) <= line and >= 1 for line >= 1; if a \"{\" line is found going up before any \"}\" line, the result is the closest preceding line that is neither indented/blank nor a preprocessor directive; if a \"}\" comes first the line is unchanged.", "quantifier": "every file content and line", "why_tests_cant": "Unbounded files.", "anchors": ["src/systrack/location.py: adjust_line"]}
{"id": "C56", "title": "Grepping yields each requested syscall exactly once with the best matching line", "statement": "Every syscall passed to the grepper is yielded exactly once; if found, its line matches its pattern, is not used for another syscall; a syscall reported not found has no unused matching line; lines under arch/ are tried before all others.", "quantifier": "every list of grep output lines and syscalls", "why_tests_cant": "Matching over unbounded lists.", "anchors": ["src/systrack/location.py: grep_kernel_sources"]}
{"id": "C57", "title": "Arch-specific definition macros can be found by grepping", "statement": "A syscall defined only through an arch-specific macro/prefix (e.g. PPC32_SYSCALL_DEFINEn) that the grep expression finds is located by grepping.", "quantifier": "every grep output line", "why_tests_cant": "All lines.", "anchors": ["src/systrack/location.py: grep_kernel_sources", "src/systrack/arch/powerpc.py: ArchPowerPC.syscall_def_regexp"]}
{"id": "C58", "title": "Full-range adjustment looks at every inner address of the symbol", "statement": "When a location is still bad, addr2line is asked about every address from vaddr+1 to vaddr+size-2, and never without any address.", "quantifier": "every symbol size", "why_tests_cant": "All sizes.", "anchors": ["src/systrack/location.py: extract_syscall_locations"]}
{"id": "C59", "title": "The source walk never reads hidden, excluded or non-C files", "statement": "The pure Python recursive grep only yields matches from non-hidden *.c files none of whose parent directories (below the root) is hidden or excluded, and yields all of those.", "quantifier": "every directory tree", "why_tests_cant": "Unbounded trees.", "anchors": ["src/systrack/location.py: grep_recursive", "src/systrack/location.py: grep_file"]}
{"id": "C60", "title": "Location extraction never adds, drops or renames syscalls", "statement": "Location and signature extraction only change file, line, signature and the location flags; the list of syscalls, their order, numbers, names and symbols are untouched.", "quantifier": "every input and oracle answer", "why_tests_cant": "Frame property over all executions.", "anchors": ["src/systrack/location.py: extract_syscall_locations", "src/systrack/signature.py: extract_syscall_signatures"]}
{"id": "C61", "title": "Kconfig dependency lookup: arch table first, then global, rendered as CONFIG_X", "statement": "kconfig_syscall_deps returns CONFIG_<arch value> if the arch table has the name at that version, else CONFIG_<global value>, else None; the JSON output strips exactly that prefix again.", "quantifier": "every name, version, tables", "why_tests_cant": "All tables/versions.", "anchors": ["src/systrack/kconfig.py: kconfig_syscall_deps", "src/systrack/output.py: SyscallJSONEncoder"]}
{"id": "C62", "title": "edit_config passes every option to scripts/config exactly once, in order", "statement": "For every list of NAME=VAL options, the script is invoked once with -e/-d/-m NAME for y/n/m and --set-val NAME VAL otherwise, in the same order, and decoding the arguments gives the options back; with no options it is not invoked.", "quantifier": "every list of options", "why_tests_cant": "Round trip over lists.", "anchors": ["src/systrack/kconfig.py: edit_config"]}
{"id": "C63", "title": "Dependency checking reports exactly the unmet dependencies and still applies the options", "statement": "edit_config_check_deps logs an error for (option, dependency) iff the effective value (to-be-set, else in .config, else default) differs from the wanted one and neither \"=n wanted but unset\" nor \"HAVE_/ARCH_HAS_ =y unavailable\" applies; options are applied in all cases.", "quantifier": "every option dict, config file and default oracle", "why_tests_cant": "Decision logic over all inputs.", "anchors": ["src/systrack/kconfig.py: edit_config_check_deps"]}
{"id": "C64", "title": "Parsing a .config file gives its assignments", "statement": "parse_config of any file made of blank lines, comments and CONFIG_NAME=VALUE lines maps NAME to the VALUE of its last assignment and contains nothing else.", "quantifier": "every config file", "why_tests_cant": "Unbounded files.", "anchors": ["src/systrack/kconfig.py: parse_config"]}
{"id": "C65", "title": "Selecting one architecture variant does not change the configuration of another", "statement": "The Kconfig options applied for an arch object are determined by its own class, ABI, bitness and version, whatever other Arch objects were created before.", "quantifier": "every sequence of Arch constructions", "why_tests_cant": "All histories of constructions.", "anchors": ["src/systrack/arch/*.py: __init__ (self.kconfig.add)", "src/systrack/arch/arch_base.py: Arch.kconfig"]}
{"id": "C66", "title": "The kernel Makefile is back to its original content after every completed build", "statement": "Whatever the outcome of the -O0/-O1/normal make runs, when build() returns or the process exits because the final make failed, the Makefile has its original content; while an -O0/-O1 build runs it differs in exactly one character.", "quantifier": "every Makefile content and every outcome of the make runs", "why_tests_cant": "All contents and failure combinations.", "anchors": ["src/systrack/kernel.py: Kernel.build", "src/systrack/kernel.py: Kernel.__try_set_optimization_level", "src/systrack/kernel.py: Kernel.__restore_makefile"]}
{"id": "C67", "title": "The kernel Makefile is restored when the build is interrupted at any point", "statement": "If the process is terminated by SIGINT/sys.exit during any make run of build(), exit handlers leave the Makefile with its original content.", "quantifier": "every interruption point", "why_tests_cant": "All crash points.", "anchors": ["src/systrack/kernel.py: Kernel.build", "src/systrack/__main__.py: sigint_handler"]}
{"id": "C68", "title": "build() tries -O0, then -O1, then the stock level, and stops at the first success", "statement": "The sequence of (optimisation level, make) actions is a prefix of [O0, O1, stock]; a later one runs only if all earlier failed; without --disable-opt or with an unpatchable Makefile only the stock build runs.", "quantifier": "every outcome", "why_tests_cant": "All outcome sequences.", "anchors": ["src/systrack/kernel.py: Kernel.build"]}
{"id": "C69", "title": "configure() applies option groups in the documented order, resolving dependencies after each", "statement": "Base config targets first, then debugging, compatibility, syscalls, arch options, each followed by a config sync whose make target is olddefconfig from v3.7 on and oldconfig before; every make call names the arch and the target.", "quantifier": "every arch and version", "why_tests_cant": "All archs/versions.", "anchors": ["src/systrack/kernel.py: Kernel.configure", "src/systrack/kernel.py: Kernel.sync_config", "src/systrack/kernel.py: Kernel.make"]}
{"id": "C70", "title": "Text output is an aligned table with one row per syscall in order", "statement": "The text output has a header, one line per syscall in list order, and an empty line before a syscall iff its number exceeds the previous by more than 1; in all non-empty lines column k starts at the same offset and contains the full cell text.", "quantifier": "every non-empty list of syscalls", "why_tests_cant": "Unbounded lists and cell widths.", "anchors": ["src/systrack/output.py: output_syscalls_text"]}
{"id": "C71", "title": "JSON output carries every field of every syscall", "statement": "Each syscall object has exactly the declared fields, with symbol replaced by its name and kconfig without CONFIG_; list order and length are those of the syscall list.", "quantifier": "every list of syscalls", "why_tests_cant": "All lists.", "anchors": ["src/systrack/output.py: SyscallJSONEncoder", "src/systrack/output.py: output_syscalls_json"]}
{"id": "C72", "title": "Every HTML table row spans the same number of columns as the header", "statement": "For every list with at least one known signature, each row spans 6 + max_args columns like the header, and each argument cell shows the argument split into type and name without losing characters.", "quantifier": "every list of syscalls", "why_tests_cant": "All lists.", "anchors": ["src/systrack/templates/syscall_table.html", "src/systrack/output.py: output_syscalls_html"]}
{"id": "C73", "title": "Invalid command lines are rejected before anything is run", "statement": "If the architecture is unknown, neither KDIR nor VMLINUX is given, KDIR is missing for checkout/config/build, or ARCH is missing for config/build, main() returns 1 and performs no checkout, make, or file operation; \"help\"/\"?\" returns 0 likewise.", "quantifier": "every combination of options", "why_tests_cant": "All option combinations.", "anchors": ["src/systrack/__main__.py: main"]}
{"id": "C74", "title": "Source trees are only modified on request", "statement": "git checkout is run iff --checkout was given (and at most once); make is only run with --build/--config/--clean; plain analysis runs neither.", "quantifier": "every combination of options and environment answers", "why_tests_cant": "All executions.", "anchors": ["src/systrack/__main__.py: main"]}
{"id": "C75", "title": "--clean works with just a kernel source directory", "statement": "systrack --clean --kdir K cleans the sources and exits with a status, without an unhandled exception.", "quantifier": "every environment", "why_tests_cant": "All environments.", "anchors": ["src/systrack/__main__.py: main", "src/systrack/kernel.py: Kernel.__init__"]}
{"id": "C76", "title": "Verbosity flags select the documented log level", "statement": "-v (any count) overrides -q; without -v, q quiet flags give threshold WARNING for q <= 1, ERROR for 2, CRITICAL for 3 and nothing for >= 4; v flags give INFO, DEBUG, everything; messages to stderr via eprint are shown iff no -q or some -v.", "quantifier": "every count of -q and -v", "why_tests_cant": "Unbounded counts.", "anchors": ["src/systrack/__main__.py: setup_logging", "src/systrack/utils.py: eprint"]}
{"id": "C77", "title": "Kernel instantiation errors end in exit status 1 with a message, never in silence", "statement": "Version, arch, missing symbols and multi-ABI errors raised while instantiating the kernel terminate with status 1; a kernel object is only returned if vmlinux (when given) has symbols, a detected version, and an arch accepting it.", "quantifier": "every constructor input", "why_tests_cant": "All inputs.", "anchors": ["src/systrack/__main__.py: instantiate_kernel", "src/systrack/kernel.py: Kernel.__init__"]}
{"id": "C78", "title": "The configuration of a variant never asks for two values of one option", "statement": "For every supported architecture, ABI and kernel version, no option gets two different values in the lists of options that systrack sets while configuring a kernel (basic, arch, ABI and syscall-enabling options).", "quantifier": "every arch, ABI and version", "why_tests_cant": "Unbounded versions; combinations of tables.", "anchors": ["src/systrack/kconfig.py", "src/systrack/arch/*.py: kconfig", "src/systrack/kernel.py: Kernel.configure"]}
{"id": "C79", "title": "Missing debug information never makes location extraction fail", "statement": "If addr2line answers normally but has no information for some of the addresses it is asked about, location extraction ends normally (with locations missing or found by grepping).", "quantifier": "every pattern of known and unknown addresses", "why_tests_cant": "All oracle answers.", "anchors": ["src/systrack/location.py: extract_syscall_locations"]}
{"id": "C80", "title": "Input given for a command reaches it", "statement": "When systrack passes data for the standard input of a command (the newlines that answer `make oldconfig` on kernels before 3.7), the command can read that data.", "quantifier": "every command run while configuring, every version", "why_tests_cant": "Depends on how the process is started; a test with a stubbed runner never notices.", "anchors": ["src/systrack/utils.py: run_command", "src/systrack/utils.py: ensure_command", "src/systrack/kernel.py: Kernel.sync_config"]}
{"id": "C81", "title": "One .config file is edited, read and built", "statement": "The configuration file edited by scripts/config, the one read to check dependencies and the one make uses are the same file, however KDIR and OUTDIR are written.", "quantifier": "every working directory, KDIR and OUTDIR", "why_tests_cant": "All combinations of relative and absolute paths.", "anchors": ["src/systrack/kernel.py: Kernel.configure", "src/systrack/kernel.py: Kernel.make", "src/systrack/kconfig.py: run_config_script", "src/systrack/kconfig.py: parse_config"]}
{"id": "C82", "title": "Declared dependencies agree with the options set", "statement": "For every architecture, ABI and kernel version, if an option that systrack sets declares that it needs another option at some value, the same configuration never sets that other option to a different value.", "quantifier": "every arch, ABI and version", "why_tests_cant": "All versions and pairs of table entries.", "anchors": ["src/systrack/kconfig_options.py", "src/systrack/arch/*.py: kconfig"]}
{"id": "C83", "title": "Printed paths are relative to the source directory", "statement": "Without --absolute-paths and with a kernel source directory, every printed path inside that directory is relative to it and every other path is printed as found; with --absolute-paths, or without the directory, paths are printed as found. Nothing else about the syscalls, nor their order, changes.", "quantifier": "every list of extracted syscalls and every source directory", "why_tests_cant": "All paths, inside and outside, and every way of writing the directory.", "anchors": ["src/systrack/__main__.py: main", "src/systrack/utils.py: maybe_rel"]}
{"id": "C84", "title": "Standard output is written exactly when an analysis succeeds", "statement": "Standard output is written only if main() returns 0 and no build option was given; an analysis returning 0 wrote the non-empty list of syscalls extracted from the chosen image in the chosen format; any other status leaves standard output empty.", "quantifier": "every command line, image and environment", "why_tests_cant": "All failures at all stages.", "anchors": ["src/systrack/__main__.py: main", "src/systrack/output.py: output_syscalls"]}
{"id": "C85", "title": "The summary on standard error counts what is printed", "statement": "The numbers in the summary (syscalls found, locations found by grepping, missing locations, missing signatures) are the counts of the printed list; a line is left out iff its count is zero, and the plural is used iff it is not one.", "quantifier": "every successful analysis", "why_tests_cant": "All results.", "anchors": ["src/systrack/__main__.py: main"]}
{"id": "C86", "title": "The --arch help tells what a build is based on", "statement": "For every value in the --arch help and every kernel version, the make targets a configuration starts from are those in the column \"Build based on\", as modified by the notes on versions; and 64-bit values of one architecture lead to the same configuration, as the note on ABIs says.", "quantifier": "every row of the help, every kernel version", "why_tests_cant": "Unbounded versions; the help is prose that no test reads.", "anchors": ["src/systrack/arch/__init__.py: SUPPORTED_ARCHS_HELP", "src/systrack/arch/*.py: config_targets", "src/systrack/kernel.py: Kernel.configure"]}
{"id": "C87", "title": "Every listed section is known with its address, offset and size", "statement": "For every output of readelf -WS, the sections known for an image are exactly the listed PROGBITS and NOBITS ones, in order, with their address, file offset and size; debug information is reported present iff .debug_line is among them.", "quantifier": "every list of sections, every layout of the table", "why_tests_cant": "Unbounded texts matched by one regular expression across lines.", "anchors": ["src/systrack/elf.py: ELF.sections", "src/systrack/elf.py: ELF.has_debug_info"]}
{"id": "C88", "title": "A successful run with -f json lists exactly the implemented entries of the table in the image", "statement": "Whenever an analysis with -f json ends with status 0, standard output is a JSON document; its syscalls other than esoteric ones are exactly the entries of the syscall table of the image (VMLINUX, or vmlinux in KDIR if only that is given) that have a symbol that is neither a ni_syscall nor skipped by the ABI nor a dummy (except those only located in kernel/sys_ni.c), each with its index, number and symbol name, in strictly increasing order of numbers; its kernel object tells the version, architecture and ABI.", "quantifier": "every world (image, command answers, file contents), command line and state", "why_tests_cant": "A whole-program property over all inputs.", "anchors": ["src/systrack/__main__.py: main", "src/systrack/kernel.py: Kernel.syscalls", "src/systrack/output.py: output_syscalls_json"]}
{"id": "C89", "title": "Every reported location is justified by the debug information or the sources, for that very syscall", "statement": "With kernel sources, a location flagged doubtful is what the debug information says about the first address of the symbol of that syscall; one that is not doubtful and not grepped is what it says about some address in the code of that symbol, moved to the function signature; a grepped one is that of a matching line in the sources naming that syscall; no file is reported only if the debug information has none. Without sources it is exactly what the debug information says about the first address; without addr2line there are no locations.", "quantifier": "every image, answer of addr2line and of grep, source tree, list of syscalls", "why_tests_cant": "Four passes over lists kept in parallel with lazily read rows: a row could be paired with the wrong syscall.", "anchors": ["src/systrack/location.py: extract_syscall_locations", "src/systrack/location.py: smart_addr2line", "src/systrack/location.py: addr2line", "src/systrack/location.py: grep_kernel_sources"]}
{"id": "C90", "title": "Paths in debug information are mapped to the source directory once", "statement": "A path in the debug information below the directory of the image, or else below the --remap directory, is reported as the same relative path below KDIR; other absolute paths are reported unchanged.", "quantifier": "every image path, KDIR, RDIR and path in the debug information", "why_tests_cant": "All combinations of relative, absolute and nested directories.", "anchors": ["src/systrack/location.py: smart_addr2line", "src/systrack/location.py: extract_syscall_locations"]}
{"id": "C91", "title": "A successful run prints the implemented entries in every format, each with its justified location", "statement": "Whenever an analysis ends with status 0, what is printed is made of the implemented entries of the table of the image (and the esoteric ones), in increasing order of numbers: aligned lines with -f text, one row per syscall with -f html when some syscall takes an argument; the location of each is one justified (C89) for the syscall with that index and symbol, with its path as -a asks.", "quantifier": "every world, command line and state", "why_tests_cant": "A whole-program property over all inputs.", "anchors": ["src/systrack/__main__.py: main", "src/systrack/kernel.py: Kernel.syscalls", "src/systrack/output.py: output_syscalls_text", "src/systrack/output.py: output_syscalls_html"]}
{"id": "C92", "title": "A signature is complete or refused", "statement": "A signature taken from a definition SYSCALL_DEFINEn has exactly n arguments, at most 6; one taken from an asmlinkage prototype has at most 7, without parentheses; every call of a macro standing for a 64-bit argument is closed and replaced by its two halves, every other field is kept; nothing containing parentheses (function pointers, unknown macros) is reported as a type or a name: such definitions are refused. A signature taken from ftrace metadata has as many arguments as its metadata object, which is pointed to from the metadata table; a table without an end is an error.", "quantifier": "every source file, line and byte order, every image", "why_tests_cant": "All texts; the failing shapes are those nobody thought of.", "anchors": ["src/systrack/signature.py: syscall_signature_from_source", "src/systrack/signature.py: parse_signature", "src/systrack/signature.py: expand_macros"]}
{"id": "C93", "title": "The .config file ends up with every requested option, and reported dependencies are those unmet in it", "statement": "On a .config file as Kconfig writes it, edited through scripts/config, every option asked for has the requested value afterwards and every other option its old one; errors are logged exactly for the declared dependencies that are unmet in the edited file. After a successful configuration, if synchronising keeps the values asked for, every option requested for that variant and version has its requested value.", "quantifier": "every .config file, option list, variant, version, answers of the commands", "why_tests_cant": "Combines unbounded files and tables with the semantics of an external script.", "anchors": ["src/systrack/kconfig.py: edit_config", "src/systrack/kconfig.py: edit_config_check_deps", "src/systrack/kconfig.py: parse_config", "src/systrack/kernel.py: Kernel.configure"]}
{"id": "C94", "title": "A command line is accepted exactly when it says something, and is run as said", "statement": "Given any list of arguments, the program either runs with settings or ends at once. It runs exactly when the arguments are a sequence of: long options by name or by an abbreviation fitting no other option (with \"=VALUE\" or a following VALUE for those that take one), groups of single letters of which only the last may take a value (attached, after \"=\", or as the following argument), and at most one VMLINUX, possibly after \"--\"; a VALUE or VMLINUX given as an argument of its own must not look like an option, and the format must be text, json or html. The settings are then those said: each switch given, -q and -v counted, and for each option with a value the last one given. An argument list can be read in several ways only if they say the same. Otherwise nothing is run and nothing printed on standard output but the help or the version: status 0 if, before \"--\", an argument asks for the help or the version, else 2. An argument before \"--\" that begins like several options is refused even if another asks for the help.", "quantifier": "all argument lists, all characters, all reactions of the outside world", "why_tests_cant": "the set of argument lists is infinite and the parser decides by lookahead over the whole list (abbreviations, grouped letters, negative numbers, spaces, --)", "anchors": ["src/systrack/__main__.py: parse_args, main"]}
{"id": "C95", "title": "A command that fails is never ignored", "statement": "Whatever the command line and whatever git, make, scripts/config, gcc and readelf answer (depending on everything run before): when one of them fails, nothing else is run and the program ends with an error: status 1, or 127 if the command or its directory does not exist (an AttributeError, if it was not to run in a given directory). The only exception are the attempts of --build --disable-opt at building vmlinux at other optimization levels: after a failed one the program ends with status 0 only if the same make command succeeded later. So a run that ends with a status of its own choosing ignored no failure, and with --build status 0 means that the last command run was a make vmlinux that succeeded.", "quantifier": "all command lines, all answers and exit statuses of all commands, all interruption points", "why_tests_cant": "failures can happen at any of dozens of commands, depending on the history; tests would have to fake every one of them", "anchors": ["src/systrack/__main__.py: main", "src/systrack/kernel.py: Kernel", "src/systrack/utils.py: ensure_command, run_command, do_popen"]}
{"id": "C96", "title": "SPU syscalls have the numbers of their table entries", "statement": "For the powerpc64-spu ABI, which has a table of its own (spu_syscall_table, one entry per number, not interleaved), entry i of the table is reported as number i and no entry is skipped, at every supported version.", "quantifier": "every index and every version", "why_tests_cant": "the version and the index are unbounded; old kernels for the SPU are not at hand", "anchors": ["src/systrack/arch/powerpc.py: ArchPowerPC.skip_syscall, ArchPowerPC.adjust_syscall_number"]}
{"id": "C97", "title": "Clicking on the HTML page sorts the table and never loses a row", "statement": "For every sequence of clicks on header cells and rows of the page written with -f html: no script error occurs; every row is shown exactly once with its cells unchanged; after a click on one of the five sortable headers the rows are ordered by what is below that header (the number column by number, the others by text), rows that are equal there keep their order, the direction is downwards when the column was marked as ascending and upwards otherwise, and exactly that column and direction are marked; highlighting stays with its row and changes only by clicks on the row. If the numbers were increasing in the output, the marked order always holds, and the original order is seen again whenever the number column is marked as ascending.", "quantifier": "every list of syscalls and every sequence of clicks", "why_tests_cant": "the history of clicks is unbounded, and number texts are compared after reading them as hexadecimal, which must preserve the order for all numbers", "anchors": ["src/systrack/templates/syscall_table.js: sortTable, highlightRow", "src/systrack/templates/syscall_table.html", "src/systrack/output.py: output_syscalls_html"]}
{"id": "C98", "title": "On x86 kernels without a syscall table, the numbers printed are those the dispatch code takes to their function", "statement": "If the analysis of an x86 kernel without a syscall table ends with status 0, and its dispatch function is of the supported form (contiguous, compares and branches on the number only), then a number is listed with a function if and only if, run with that number, the dispatch function leaves to that function and this is not where all other numbers go, and the function is not ni_syscall, is not a dummy, and is not only located in kernel/sys_ni.c. In particular nothing reachable is missing and no number of the default case is listed.", "quantifier": "every image, every decoder and every dispatch function of the supported form", "why_tests_cant": "the dispatch function is a binary search of unbounded depth whose behaviour must be known for each of the 4096 numbers", "anchors": ["src/systrack/arch/x86.py: ArchX86.extract_syscall_vaddrs, ArchX86.__emulate_syscall_switch", "src/systrack/kernel.py: Kernel.__extract_syscalls", "src/systrack/__main__.py: main"]}
{"id": "C99", "title": "The messages of the analysis are about exactly the problems there are", "statement": "For every analysis that ends without an exception: each table address occurring more than once (other than ni_syscall) is reported once with its count; each syscall left out because it points to kernel/sys_ni.c, and each listed syscall with an unconfirmed location, without location or without signature (when these can be known) is reported exactly once, in order, and no others are; a fatal message means an empty result and an empty result comes with a fatal message; the check that ni_syscall is the most frequent entry and the warning about addresses outside the code reach the user; a rejected ELF header is reported with the offending byte.", "quantifier": "every image, architecture, version and source tree", "why_tests_cant": "which entries are repeated, unlocated or outside the code depends on the whole image, and a wrong call of the logger only shows for images with that problem", "anchors": ["src/systrack/kernel.py: Kernel.__extract_syscalls, Kernel.__unpack_syscall_table, Kernel.__syscall_vaddrs_from_syscall_table", "src/systrack/elf.py: ELF.__init__"]}
{"id": "C100", "title": "Grepping finds the same lines whether or not ripgrep is installed", "statement": "For every source tree and architecture, the lines found by grepping the sources for syscall definitions are the same whether the rg command is installed or not, and a search without result is not an error in either case.", "quantifier": "every source tree, every architecture", "why_tests_cant": "the set of files searched by the two implementations must agree for every layout of the tree; tests run on one machine with or without rg", "anchors": ["src/systrack/location.py: grep_kernel_sources, grep_recursive, grep_file"]}
{"id": "C101", "title": "The location found by grepping does not depend on the order in which files are searched", "statement": "For every list of lines found by grepping, and every other order of the same lines, each syscall gets the same location.", "quantifier": "all lists of lines and all permutations", "why_tests_cant": "directories are listed in an arbitrary order, and ripgrep searches with several threads: the order changes from run to run", "anchors": ["src/systrack/location.py: grep_kernel_sources"]}
{"id": "C102", "title": "An image that cannot be analysed is rejected for exactly the reason told", "statement": "For every image with symbols: without --arch it is rejected exactly when its machine is not supported, when it has several ABIs, or when it has one ABI but no version; with --arch exactly when it has no version or is not of that architecture; images without symbols are rejected as such. In each case the status is 1, nothing is written to standard output, and standard error gets exactly the message for that reason (detected ABIs and name of the architecture included), or nothing with -q.", "quantifier": "every image, every --arch, every verbosity", "why_tests_cant": "all combinations of machine, class, symbols and version, with every name of an architecture", "anchors": ["src/systrack/kernel.py: Kernel.__init__", "src/systrack/__main__.py: instantiate_kernel, main", "src/systrack/arch/__init__.py: arch_from_vmlinux, arch_from_name"]}
{"id": "C103", "title": "Table, numbers and registers are those of the selected ABI", "statement": "For every architecture variant, every supported version and every image: the syscall table read is the one Linux has for that ABI at that version (or none, where there is none), the numbers start at the base of the ABI, the ABI is marked compat exactly when it is not the main one of the kernel, and the calling convention printed with -f json is the one documented in syscall(2) for that ABI.", "quantifier": "every variant, version and image", "why_tests_cant": "variants times versions times presence of symbols; each combination needs a kernel image", "anchors": ["src/systrack/arch/arch_base.py: Arch.adjust_abi", "src/systrack/arch: ArchArm, ArchArm64, ArchMips, ArchPowerPC, ArchRiscV, ArchX86 (constructors, adjust_abi)", "src/systrack/output.py: output_syscalls_json"]}
{"id": "C104", "title": "Definitions that can be found are found", "statement": "With KDIR given, for every image, every debug information and every source tree: unless the debug information is of no use for any syscall, a syscall gets as its location the first of the places its debug information leads to (start of its code, end, inner addresses in order) that really is a definition of it, marked as good; if there is none, it is searched for in the sources, and when exactly one line of the sources defines it (and no other syscall of the list), that line is its location, marked as good and as found by searching; the search is given up only when the debug information leads outside KDIR.", "quantifier": "every list of syscalls, debug information, source tree, KDIR and RDIR", "why_tests_cant": "depends on the combination of all syscalls (one bad path changes the outcome for all others), on every address of every function and on the whole source tree", "anchors": ["src/systrack/location.py: extract_syscall_locations, good_location, grep_kernel_sources, adjust_line, smart_addr2line"]}
{"id": "C105", "title": "The HTML page tells how far a location can be trusted", "statement": "With -f html, for every kernel and every list of syscalls: the location cell of a syscall is unmarked exactly when its location is a confirmed definition found by the debug information; a definition found by searching, an unconfirmed place, a file without a line and an unknown location are each marked with their own class and explanation; the name is marked exactly when the implementation is special; a relative path links to that file and line in the browsable sources of the version analysed, an absolute one to nothing; title and headings name the version, the architecture with its width and the ABI with its width and whether it is a compat one.", "quantifier": "every kernel, list of syscalls and version", "why_tests_cant": "all combinations of known file, line, confirmation and origin, and texts with characters special in HTML, matter", "anchors": ["src/systrack/output.py: output_syscalls_html", "src/systrack/templates/syscall_table.html"]}
{"id": "C106", "title": "Names, options and signatures of printed syscalls come from the image and the sources", "statement": "When an analysis ends with status 0, each printed syscall of the table has: as original name, its symbol name (as the architecture translates it) without the longest prefix that ends in an underscore and is shared by at least twenty entries, and as name the normal form of that; as option, the one listed for its name at the version of the kernel (for the architecture, else for all), else the one for its original name, else none; as signature, the parameters of the definition in the source at its location if that location is confirmed, else those in the ftrace metadata of the image for its original name, else for its name, else none. The only other syscalls printed are those handled outside of the table (the private ones of ARM, switch_endian of PowerPC), all of them, with their documented numbers, names and parameters. With -f json the document has exactly one object per such syscall with these values.", "quantifier": "every run of the program that succeeds, with any image, sources, tools and options", "why_tests_cant": "the sources of each value have priorities; a test sees one kernel, with one combination of prefixes, options, definitions and metadata", "anchors": ["src/systrack/kernel.py: __extract_syscalls", "src/systrack/signature.py", "src/systrack/kconfig.py: kconfig_syscall_deps", "src/systrack/output.py: output_syscalls_json"]}
{"id": "C107", "title": "Every run ends", "statement": "Whatever the command line, the image and the sources, a run of the program ends, as long as the commands it runs end.", "quantifier": "every command line, image, source tree and answers of the commands", "why_tests_cant": "no test can observe that a loop never ends, nor that all of them end for all inputs", "anchors": ["src/systrack/__main__.py: main", "src/systrack/kernel.py: __version_from_vmlinux", "src/systrack/elf.py: vaddr_read_string", "src/systrack/signature.py: syscall_signature_from_source", "src/systrack/arch/x86.py"]}
{"id": "C108", "title": "Of several symbols at the address of an entry the one with the best name is used", "statement": "When no ni_syscall is at the address in a table entry, the syscall gets the symbol whose name is in the best class of all symbols of the image at that address: names with the prefix of the ABI analysed (__x64_, __ia32_, __x32_ on x86, where __x64_ also comes before the rest for the other two, __arm64_, __riscv_), then sys_, then compat_sys_, then the rest. On arm, arm64, mips and riscv names containing \"compat\" come before all others for a compat ABI, and after all others otherwise; on 64-bit PowerPC names with a leading dot come first; on x86 names with capital letters come after the others, and __ia32_ names last when not analysing ia32. In a class with a prefix the last name in alphabetical order is used, in the rest the first. The order of the symbols in the image does not matter.", "quantifier": "every architecture and ABI, every image, every table entry, any number of symbols at an address", "why_tests_cant": "the symbols are compared two at a time in a loop; that this gives the best of all needs the comparisons to be consistent for all names", "anchors": ["src/systrack/kernel.py: __extract_syscalls", "src/systrack/arch/arch_base.py: Arch.preferred_symbol", "src/systrack/arch/x86.py: ArchX86.preferred_symbol", "src/systrack/arch/powerpc.py: ArchPowerPC.preferred_symbol"]}
{"id": "C109", "title": "The whole record of an extraction is known: which messages, in which order, at which level", "statement": "For every extraction from an image the warnings, errors and fatal messages about the table and the syscalls are exactly these, in this order: about the table (symbol missing; size of 128 bytes or less; one record for each address outside the section when the size is good, whose text is lost; no .opd section; one for each descriptor that points outside .text, with its address; nothing found; or that there is no table); about addresses found more than once, most often first and then in the order of appearance; about entries without symbol, by index, with table, index and address (the extraction then fails); one if no twenty names share a prefix; about syscalls assumed not to be implemented, unconfirmed locations, missing locations and missing signatures. An image of the wrong width gives just one message saying both widths; without entries or without ni_syscall a fatal message follows those about the table.", "quantifier": "every image, architecture, version and source tree; for entries without symbol also extractions that fail", "why_tests_cant": "a record is a function of the whole image: the order of repeated addresses, of descriptors and of unresolved entries, and which branch reads the table", "anchors": ["src/systrack/kernel.py: Kernel.__extract_syscalls, Kernel.__unpack_syscall_table, Kernel.__syscall_vaddrs_from_syscall_table"]}
{"id": "C110", "title": "Messages on standard error can be read back, are colored only on a terminal, and -qqqq means silence", "statement": "For every sequence of messages and every number of -q and -v: the log lines on standard error are those of the levels asked for (-v info, -vv debug, -qq no warnings, -qqq no errors, -qqqq nothing), in order, and each line tells its level and message; on a terminal each log line is shown in the color of its level, everything else is plain and no color is left on; otherwise no escape sequence is written; messages of the program itself are hidden by any -q without -v; with -qqqq nothing at all is written to standard error.", "quantifier": "every number of -q and -v options, every sequence of messages, records, interruptions and uncaught exceptions", "why_tests_cant": "all combinations of option counts, all message texts and all interleavings", "anchors": ["src/systrack/__main__.py: setup_logging, sigint_handler, main", "src/systrack/utils.py: eprint, enable_silent"]}
{"id": "C111", "title": "A configured kernel has the options its syscalls depend on", "statement": "For every architecture, ABI and kernel version: an option that the output names as needed by a syscall is turned on by the configuration made by --config or --build, and never set to another value; every configuration asks for debug information and no relocations; one for a 64-bit kernel turns on all ABIs of the architecture, and one for OABI the support for it.", "quantifier": "every architecture, ABI, bitness, kernel version and syscall name", "why_tests_cant": "all versions, syscalls and variants; the tables are kept by hand in different files", "anchors": ["src/systrack/kconfig_options.py: KCONFIG_SYSCALL_DEPS, KCONFIG_MORE_SYSCALLS, KCONFIG_DEBUGGING", "src/systrack/kconfig.py: kconfig_syscall_deps", "src/systrack/kernel.py: Kernel.configure", "README.md: Supported architectures and ABIs"]}
{"id": "C112", "title": "A command that fails is told together with everything it said", "statement": "Whenever an external command fails, exactly one message tells why and the program ends with status 1, or 127 if the command cannot be started: the exit status, every word of the command and its standard error can be read back from the message; for a command that cannot be started the message says whether the command or the directory is missing. Nothing is told about a command that succeeds. The command shown can be pasted into a shell.", "quantifier": "every command, working directory, exit status, standard output and standard error", "why_tests_cant": "all texts with quotes, escapes, blank lines and line ends", "anchors": ["src/systrack/utils.py: do_popen, run_command, ensure_command", "CHANGELOG.md: v0.7"]}
{"id": "C113", "title": "What is told about locations matches what was done", "statement": "While locations are searched for, exactly these messages of level WARNING and above appear: without addr2line, one saying so; without sources, one saying whether the debug information is trusted or has nothing; with sources, either that all locations look bad and are skipped, or that the debug information leads outside the sources so they are not searched, or one message for each syscall found by searching the sources, with its original name and the location it got, in the order of their names. Sources that do not have the file or line named by the debug information are told about and end the program with status 1.", "quantifier": "every set of syscalls, debug information, source tree, KDIR and RDIR", "why_tests_cant": "all combinations of answers of addr2line and files", "anchors": ["src/systrack/location.py: extract_syscall_locations, adjust_line"]}
{"id": "C114", "title": "addr2line is asked only about addresses of syscalls", "statement": "The locations depend on what addr2line says about addresses in the code of the syscalls and on nothing else it could say; without sources only the first address of each is asked about, and without addr2line nothing. It is never run without an address, when it would wait for addresses from the standard input of systrack.", "quantifier": "every set of syscalls, debug information, source tree, KDIR and RDIR", "why_tests_cant": "two programs that agree on some questions and differ arbitrarily on all others have to be compared", "anchors": ["src/systrack/location.py: extract_syscall_locations, addr2line, smart_addr2line"]}
{"id": "C115", "title": "Odd bytes in source files do not matter", "statement": "Source files are read as bytes to find and check the definition of a syscall, and once more to read its signature. Whatever bytes a file contains elsewhere, the line accepted as a definition is the line the signature is read from, and bytes that are not UTF-8 outside of definitions do not end the extraction.", "quantifier": "every file content, line, architecture and syscall", "why_tests_cant": "all byte sequences, all mixtures of line ends; files of the kernel with other encodings exist but few are opened by one run", "anchors": ["src/systrack/location.py: good_location, adjust_line", "src/systrack/signature.py: syscall_signature_from_source"]}
{"id": "C116", "title": "What is told when the syscall switch cannot be analysed", "statement": "On kernels without syscall table, the analysis of the dispatch function shows at most one message. If it shows one, it is an error that states a true reason (no such function, too small, no comparison, the first instruction it cannot deal with and its address, a branch no number takes, two default cases) and nothing is extracted. If it shows none and the code is of the supported kind, every number is extracted with the place it leads to, except for the default case.", "quantifier": "every dispatch function, decoding, order of sets, way to show instructions", "why_tests_cant": "all machine code sequences; a test has a few compiled kernels", "anchors": ["src/systrack/arch/x86.py: ArchX86.extract_syscall_vaddrs, ArchX86.__emulate_syscall_switch", "src/systrack/arch/arch_base.py: Arch.extract_syscall_vaddrs"]}
{"id": "C117", "title": "Skipped instructions do not matter", "statement": "Instructions of the dispatch function that the analysis skips (all except comparisons, branches and returns) only appear in debug output: the syscalls extracted are the same however many and whichever there are.", "quantifier": "every dispatch function, decoding, order of sets", "why_tests_cant": "all combinations of skipped instructions and how often each occurs", "anchors": ["src/systrack/arch/x86.py: ArchX86.__emulate_syscall_switch"]}
{"id": "C118", "title": "The complete record of an analysis, and signatures of confirmed locations", "statement": "Source files being UTF-8 text without lone carriage returns (C115 is about others), a syscall whose location is confirmed always has a signature when the analysis ends, and nothing is ever told while signatures are extracted. What is shown at level WARNING and above is, in this order: what concerns the table (or that there is none), repeated addresses, missing prefixes, the search for locations, syscalls taken as not implemented, doubtful locations, missing locations, missing signatures (only for syscalls without confirmed location). If nothing is found, it is what is told about the table, or at most one error about the code that stands for it, and that the program gives up.", "quantifier": "every image, architecture, source tree, debug information, dispatch function, order of sets", "why_tests_cant": "all combinations of messages of five modules; the outcome for every line accepted as a definition", "anchors": ["src/systrack/kernel.py: Kernel.__extract_syscalls", "src/systrack/location.py: extract_syscall_locations, good_definition", "src/systrack/signature.py: syscall_signature_from_source, extract_syscall_signatures", "src/systrack/arch/x86.py: ArchX86.extract_syscall_vaddrs"]}
{"id": "C119", "title": "What is told about dependencies of Kconfig options", "statement": "While options are set in the configuration file, everything seen from outside is, in order of the options and of their dependencies: the default of a dependency is asked for exactly if it is neither to be set nor set in the file, then a dependency that will not have the wanted value is told as an error \"CONFIG_A=y wants CONFIG_B=y, but CONFIG_B=m!\" (or \"... is not set!\"), except that an unavailable architecture capability is told as a warning \"CONFIG_A=y won't be set because CONFIG_HAVE_B is not set\"; each exactly once; at the end one invocation sets all options. The value told is the one the dependency has in the file after the edit. Different situations give different error texts.", "quantifier": "every set of options and dependencies, every configuration file, every default", "why_tests_cant": "all interleavings of queries and messages, for all files", "anchors": ["src/systrack/kconfig.py: edit_config_check_deps, edit_config, run_config_script"]}
{"id": "C120", "title": "A run that fails says why", "statement": "Everything a run writes to standard error (at default verbosity), in order. A run that ends with a status other than 0 says why at the very end: a traceback for an exception that is not caught, otherwise the report of the interruption, the fatal message about the last command (its status and what it wrote to its standard error, or why it could not be started), one about the image or the source, or one of a fixed list of paragraphs; without -q this is the end of the text on standard error. A successful analysis writes exactly: the line about the checkout asked for, a warning if the file does not start like an ELF file, the kernel version, the line about the automatic checkout, the messages of the extraction, the summary. A successful --clean, --config or --build writes exactly: that line, the first line the compiler printed, the steps, the version make printed, the messages about kernel options, one message for each optimization level that could not be used, the time. Writing messages does not change what the program does.", "quantifier": "every command line, every outside world (files, commands, their outputs and failures, moment of an interruption)", "why_tests_cant": "every way to fail at every point of every run", "anchors": ["src/systrack/__main__.py: main, instantiate_kernel, setup_logging", "src/systrack/utils.py: eprint, ensure_command, run_command, do_popen", "src/systrack/elf.py: ELF.__init__", "src/systrack/kernel.py: Kernel.__extract_syscalls, Kernel.build", "src/systrack/output.py: output_syscalls"]}
{"id": "C121", "title": "Repeating a run gives the same result", "statement": "Two runs of the same command in the same circumstances give the same exit status, the same standard output, run the same commands and leave the same files, whatever the hash seed of the Python process, that is, whatever the order in which its sets are gone through. They also say the same on standard error.", "quantifier": "every command line and outside world, every pair of iteration orders of the sets of the program", "why_tests_cant": "the order of a set of strings changes from one process to the next; tests see a few orders", "anchors": ["src/systrack/kernel.py: Kernel.__extract_syscalls", "src/systrack/arch/x86.py: ArchX86.extract_syscall_vaddrs, emulate_code", "src/systrack/elf.py: Symbol"]}
{"id": "C122", "title": "The kernel Makefile survives any number of interruptions, and what a killed run leaves is known", "statement": "With --disable-opt a build rewrites KDIR/Makefile. Ctrl-C may arrive between any two statements, any number of times, also while exit handlers run: the Makefile has its original content when the process is over. A run that is killed leaves the original content, or the content with one digit (the optimisation level) changed. Without the line that is rewritten, or without the option, the Makefile never changes.", "quantifier": "every Makefile without carriage returns, every set of moments at which SIGINT arrives, every outcome of the commands, every moment at which the process is killed", "why_tests_cant": "the moments are between single statements; no test stops a program at all of them, let alone at pairs of them", "anchors": ["src/systrack/kernel.py: Kernel.__try_set_optimization_level, Kernel.__restore_makefile, Kernel.build", "src/systrack/__main__.py: sigint_handler"]}
{"id": "C123", "title": "Earlier runs, however they ended, do not change what a later run builds", "statement": "Any number of runs work on one source tree one after the other, with and without --disable-opt; each may be interrupted any number of times or killed. A later run finds the original KDIR/Makefile, and so a build without --disable-opt is made with the optimisation level of the sources; at least, a Makefile that was left changed is repaired by a later run.", "quantifier": "every history of runs, every set of moments of interruption or kill in each of them, every Makefile without carriage returns", "why_tests_cant": "histories are unbounded, and the moments lie between single statements", "anchors": ["src/systrack/kernel.py: Kernel.__try_set_optimization_level, Kernel.__restore_makefile, Kernel.build"]}
{"id": "C124", "title": "A syscall is listed under the name it is defined with", "statement": "A syscall of the table defined in the kernel as SYSCALL_DEFINEn(name, ...) or COMPAT_SYSCALL_DEFINEn(name, ...), whose symbol is the name with the prefix made by the macros or stubs of its architecture, is printed under that name.", "quantifier": "every successful analysis, every architecture and ABI, every table and set of names", "why_tests_cant": "prefixes are found by counting over all entries of the table, so one name depends on all the others", "anchors": ["src/systrack/syscall.py: common_syscall_symbol_prefixes", "src/systrack/kernel.py: Kernel.__extract_syscalls", "src/systrack/arch/arch_base.py: Arch.translate_syscall_symbol_name", "src/systrack/arch/x86.py: ArchX86.translate_syscall_symbol_name"]}
{"id": "C125", "title": "A Kernel object of an image gives the same answers however it is used", "statement": "Once a Kernel object was made of a vmlinux image, reading its version, version string, tag and source, what can be extracted, and its list of syscalls gives the same answers after any sequence of uses (readings, make, sync_config, clean, configure, build, failed or not) and whatever happens outside: the version is that of the image; the syscalls are, the first time, those extracted with the architecture chosen at the beginning, even after failed attempts, and then always that same list. Reading neither runs make or scripts/config nor touches the Makefile.", "quantifier": "every image and way to make the object, every sequence of uses, every change of the outside between two uses", "why_tests_cant": "the object caches and changes itself (version, architecture, list), and sequences of uses are unbounded", "anchors": ["src/systrack/kernel.py: Kernel.__init__, Kernel.version, Kernel.version_str, Kernel.version_tag, Kernel.version_source, Kernel.syscalls, Kernel.clean, Kernel.configure, Kernel.build", "src/systrack/arch/arm.py: ArchArm.adjust_abi", "src/systrack/arch/x86.py: ArchX86.adjust_abi"]}
{"id": "C126", "title": "A Kernel object of a source tree keeps up with the tree, and serves to build and to analyze", "statement": "The version given by a Kernel object made for a source tree is what the tree answered when it was last asked; it is not asked again before clean, configure or build is called, and asked again after that. Each of these methods does the same whatever was done before. After a successful build the syscalls of the kernel can be read from the object.", "quantifier": "every tree and way to make the object, every sequence of uses and every behaviour of make", "why_tests_cant": "the object caches, and sequences of uses are unbounded", "anchors": ["src/systrack/kernel.py: Kernel.__init__, Kernel.version, Kernel.version_str, Kernel.version_source, Kernel.syscalls, Kernel.can_extract_location_info, Kernel.clean, Kernel.configure, Kernel.build, Kernel.sync_config"]}
{"id": "C127", "title": "Any name can be looked for", "statement": "Names of syscalls are spliced into regular expressions. Whatever a syscall is called, the expressions that are made are valid, deciding whether a line of source defines it never fails, and a line that is accepted contains the name. The expressions without names (output of readelf, versions, the Makefile, the search of the sources) are valid and match what they are meant to.", "quantifier": "every architecture and ABI, every name and every line", "why_tests_cant": "a character special to regular expressions in a name changes the meaning of the expression, or makes it invalid; names come from the symbols of the image", "anchors": ["src/systrack/location.py: good_definition, grep_kernel_sources", "src/systrack/arch/arm.py: ArchArm.syscall_def_regexp", "src/systrack/arch/mips.py: ArchMips.syscall_def_regexp", "src/systrack/arch/powerpc.py: ArchPowerPC.syscall_def_regexp", "src/systrack/arch/x86.py: ArchX86.syscall_def_regexp", "src/systrack/elf.py: ELF.__extract_symbols, ELF.sections", "src/systrack/kernel.py: Kernel.version_from_str, Kernel.__try_set_optimization_level"]}
{"id": "C128", "title": "Builds at the same time in one source tree", "statement": "Any number of runs may build in the same source tree at the same time, with output directories of their own. When all are over the Makefile of the tree is as it was, and each build was made from the Makefile meant for it: with the level of optimisation asked for, all else as it was. Whatever happens, nothing is written to the Makefile but what it contained, NUL bytes in gaps, and levels of optimisation in their place, and every run comes to an end.", "quantifier": "every number of runs, every interleaving of their reads and writes, every size of pieces read and written, interruptions and kills at any time", "why_tests_cant": "the outcome depends on the schedule; no test enumerates the interleavings", "anchors": ["src/systrack/kernel.py: Kernel.build, Kernel.__try_set_optimization_level, Kernel.__restore_makefile", "src/systrack/__main__.py: sigint_handler"]}
{"id": "C129", "title": "Functions that only return an error are not listed", "statement": "A syscall of the table is never listed if the code of its function, as delimited by the symbol table, is one of the known forms of a function that does nothing but return -ENOSYS or -EINVAL. x86: an optional endbr, a move of the error to eax or rax, and a return or jump. ARM: mvn.w and bx lr. MIPS: jr ra and li, in either byte order. PowerPC: li r3,-ENOSYS and blr, with saving and restoring of the link register, nops and calls anywhere and with or without a stack frame of any size.", "quantifier": "every image, table and function, every number, place and kind of the additional instructions, every frame size and jump target", "why_tests_cant": "the shapes are unbounded in length and the boundary cases (shortest and longest code) are the ones a wrong comparison loses", "anchors": ["src/systrack/arch/x86.py: ArchX86._dummy_syscall_code", "src/systrack/arch/arm.py: ArchArm._dummy_syscall_code", "src/systrack/arch/mips.py: ArchMips._dummy_syscall_code", "src/systrack/arch/powerpc.py: ArchPowerPC._dummy_syscall_code", "src/systrack/arch/arch_base.py: Arch.is_dummy_syscall", "src/systrack/kernel.py: Kernel.__extract_syscalls"]}
{"id": "C130", "title": "Links of the HTML page lead to the reported place", "statement": "On the HTML page there is a link for a syscall exactly if its file is told relative to the source directory. Followed by a browser, it leads to the browsable sources of the version of the kernel, there to the file reported and in it to the line reported, if one is.", "quantifier": "every kernel, every list of syscalls, every file name and line", "why_tests_cant": "file names are arbitrary text, and addresses have a syntax of their own; tests use the usual names", "anchors": ["src/systrack/templates/syscall_table.html", "src/systrack/output.py: output_syscalls_html", "src/systrack/kernel.py: Kernel.version_tag"]}
{"id": "C131", "title": "The text table can be read back", "statement": "Cutting the lines of the text table where the titles in its first line begin gives back all syscalls in order, each with its index, number, both names, symbol, file and line, whether these are certain, option and list of arguments: two different listings never look the same.", "quantifier": "every non-empty listing", "why_tests_cant": "widths of columns depend on all rows together; scripts cut at fixed places, and tests look at a few listings", "anchors": ["src/systrack/output.py: output_syscalls_text"]}
{"id": "C132", "title": "The formats tell the same", "statement": "Option -f decides only about how the result is written. Runs differing only in it run the same commands, make the same changes, say the same and end with the same status, and the text table and the JSON document tell the same of the same syscalls in the same order.", "quantifier": "every command line, image and environment", "why_tests_cant": "it is about two runs at a time, over all inputs; tests look at one format each", "anchors": ["src/systrack/__main__.py: main", "src/systrack/output.py: output_syscalls"]}
{"id": "C133", "title": "Only variants that exist can be selected", "statement": "An Arch object can be made for a class, an ABI and a width of the kernel exactly if the --arch help lists that combination and the kernel version is not older than the first one supporting it; any other combination is refused.", "quantifier": "every class, version, ABI text and width", "why_tests_cant": "ABI names are arbitrary text and versions are unbounded; tests use the documented combinations", "anchors": ["src/systrack/arch/arm.py: ArchArm.__init__", "src/systrack/arch/arm64.py: ArchArm64.__init__", "src/systrack/arch/mips.py: ArchMips.__init__", "src/systrack/arch/powerpc.py: ArchPowerPC.__init__", "src/systrack/arch/riscv.py: ArchRiscV.__init__", "src/systrack/arch/x86.py: ArchX86.__init__"]}
