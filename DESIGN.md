# Formal model of systrack: design

Subject: `mebeim/systrack` at the pinned commit, `/repo/src/systrack` (read as text, never run).
Properties: `properties.jsonl`. Status of each: `MANIFEST.json`. Mutation log: `seeded/LOG.jsonl`.

## 1. Approach

The Python code is transcribed, function by function, into total Lean 4 functions.

* **Exceptions are values.** A Python function that may raise, exit or diverge becomes a function into
  `Except Exc α` where `Exc` lists the Python exception classes, `exit n` (`sys.exit(n)`) and `hang`
  (a loop proved never to leave; never produced by fuel running out except where a lemma shows that
  out-of-fuel is exactly divergence).
* **Outside world = parameters.** What systrack learns from subprocesses (`readelf`, `addr2line`,
  `rg`, `make`, `git`), from files and from `iced_x86` is an argument of the model (an oracle or a
  file content), universally quantified in theorems. What systrack does to the outside world is a
  list of actions returned by the model, or an explicit state (Makefile content, registered exit handlers).
* **Python data.** `str` = `List Char`, `bytes` = `List UInt8`, `int` = `Nat` (or `Int` where negative
  values can occur), `dict` = association list in insertion order with Python's update rule,
  `set` iteration order = an explicit list whose order theorems quantify over,
  version tuples = `List Nat` with lexicographic order.
* **Regular expressions** are interpreted by a small backtracking matcher (`Verif/Model/Regex.lean`) that
  enumerates all matches in Python's priority order; the patterns are transcribed symbol by symbol.

Properties are stated in `Verif/Props/*.lean` against small specifications in `Verif/Spec/*.lean`
(ELF encoders, source text printers, POSIX word splitting, concrete machine semantics, ...) which do
not mention the model's helpers. Helper lemmas live in `Verif/Lemmas`.
Each property theorem is accompanied by an `example` instantiating its hypotheses.

A property that is **false of the code** keeps its full statement in `properties.jsonl`; the model
theorem `..._refuted` gives a concrete witness and a theorem `..._partial` proves what does hold.

## 2. Modules

Everything is under `lean/Verif`: `Model/X` (the transcription), `Spec/X` (specifications that theorems are stated with),
`Lemmas/X*` (helper lemmas), `Props/X` (the theorems named in `MANIFEST.json`, their examples, and the few small lemmas only
they use). `Verif.lean` imports the `Props`.

| Model | Models | Properties |
|---|---|---|
| `Py` | Python built-ins used: string/bytes methods, dict, tuple comparison, slices, `struct.unpack` | |
| `Regex` | the subset of `re` used | |
| `Utils` | `utils.py` | C01–C08 |
| `Elf` | `elf.py` | C09–C16, C87 |
| `Kernel` | `kernel.py`: version, constructor, extraction | C17–C21, C29–C37 |
| `Arch` | `arch/*.py`: classes, names, numbers, dummy checks | C22–C28, C38–C43, C65, C86, C96 |
| `X86Emu` | `arch/x86.py` switch analysis (input: decoded instructions), part of the program in `Main` | C44–C46, C98 |
| `Diag` | calls of `logging` in `elf.py` (class, byte order) and `kernel.py` (table, extraction): level, format, arguments, `%` formatting | C99 |
| `Rg` | the `rg` command of `location.py:108-133`: globs, files searched, lines printed, status | C100, C101 |
| `Syscall`, `Signature` | `syscall.py`, `signature.py` | C47–C52, C92 |
| `Location` | `location.py` | C52–C60, C79, C89, C90, C104 |
| `Cli` | `__main__.py:30-86` with the parsing part of `argparse` | C94 |
| `Kconfig`, `KconfigTables` | `kconfig.py`, `kconfig_options.py` (tables generated by `tools/gen_tables.py` from the text) | C05, C61–C65, C78, C82, C93 |
| `Build` | `kernel.py` configure/build, Makefile patching, exit handlers, `utils.py` commands | C66–C69, C80, C81 |
| `Output` | `output.py`, `templates/syscall_table.html` | C70–C72, C105 |
| `Page` | `templates/syscall_table.js` | C97 |
| `Main` | `__main__.py` | C73–C77, C83–C85, C88, C91, C95 |
| `Log`, `Popen`, `LocDiag`, `EmuDiag`, `DepDiag`, `Whole`, `Stderr` | the same functions once more with what they write to standard error; each is proved to behave as the plain model | C110, C112, C113, C116, C118–C120 |
| `Source`, `Skipped` | source files as bytes; the counting of skipped instructions | C115, C117 |
| `Crash` | patching and restoring of the Makefile, statement by statement | C122, C123 |
| `Pattern` | the texts of the regular expressions, `re.compile` | C127 |
| `Shared` | patching and restoring of the Makefile by many processes at a time | C128 |
| `Object` | the class `Kernel` as an object with caches, used many times | C125, C126 |

## 3. Properties: model and proof method

| Id | Modelled | Proof |
|---|---|---|
| C01 | `noprefix`, `nosuffix` | induction on the affix list, append/drop lemmas |
| C02 | `VersionedDict` as a state machine (ranges, cache) | refinement to the log of operations by induction on the history |
| C03 | same | refuted by a lookup/add/lookup history; `_partial`: no earlier lookup of that version |
| C04 | `VersionedList` as a state machine | refinement to the log of operations |
| C05 | tables generated from `kconfig_options.py` | pairwise check by kernel computation, lifted to all versions by order lemmas |
| C06 | paths as component lists | list prefix algebra |
| C07 | `format_duration` of a fraction | div/mod arithmetic; injectivity by parsing back |
| C08 | `shlex.join`/`quote` | POSIX word splitter as specification, induction |
| C09 | `ELF.__init__` on bytes | encoder as spec, round trip |
| C10 | same | refuted for ELF64 (reads offset 0x24 = low half of e_phoff…); `_partial`: ELF32 |
| C11, C12 | `__extract_symbols` per line through the regex model | printer as spec; regex match lemmas |
| C13 | `vaddr_to_file_offset`, `vaddr_read` | list induction; permutation invariance |
| C14, C15 | `vaddr_read_string` | induction on the data; C15 refuted (no NUL before EOF: `read(1)` returns `b''` forever), `_partial`: NUL exists |
| C16 | `next_symbol` | minimum lemma plus real_vaddr ∈ {vaddr, vaddr-1} |
| C17, C18 | `version_from_str`, `version_tag` | regex model, decimal printing round trip; C18 refuted for two components |
| C19 | tuple comparison | lexicographic order lemmas |
| C20, C21 | `common_syscall_symbol_prefixes` | membership characterisation by counting |
| C22, C23 | name functions of all archs | infix closure |
| C24–C28 | arch classes | case analysis over classes × header/symbol facts |
| C29–C31 | table decoding | little/big endian round trip, induction |
| C32, C33 | symbol resolution fold | fold invariants; order independence via commutative selection, with explicit exceptions |
| C34–C37 | extraction pipeline | invariants on the sorted index list |
| C38–C40 | arch number rules | arithmetic; instruction-subsequence spec |
| C41–C43 | dummy checks | byte decoding against small instruction semantics |
| C44–C46 | switch emulator over sets of numbers | monotone measure; soundness/completeness against concrete runs |
| C47–C52 | signature parsing | printers as spec, round trip; memory image spec for ftrace |
| C53–C60 | location pipeline with oracles | invariants of each step |
| C61–C65 | Kconfig | list induction, decision tables, store semantics |
| C66–C69 | build as state machine with crash points | invariants on traces |
| C70–C72 | output | list/width lemmas |
| C73–C77 | CLI | decision logic over all option records; frame lemmas for the commands run |
| C78, C82 | option tables of all archs | pairwise check by kernel computation, lifted to all versions |
| C79 | location pipeline | refuted by a witness; `_partial` under the condition that avoids it |
| C80 | commands with their standard input | refuted for versions before 3.7; `_partial` from 3.7 on |
| C81 | path resolution of the three users of `.config` | refuted for relative paths; `_partial` for absolute ones |
| C83–C85 | output and messages of a run of the program | invariants of `main` |
| C87 | the section expression over a whole output | the regular expression is deterministic; matches are five consecutive words |
| C88, C91 | the whole program, from the image to the text printed | composition of C84, C35, C34, C60, C89 and C70, C71, C72 |
| C89 | the four passes of the location extraction | invariant on the list of syscalls and on the lists of references to it, in each loop |
| C90 | same | refuted for relative KDIR and for RDIR above KDIR; `_partial` otherwise, from C89 |
| C92 | `signature.py`, soundness: what an accepted definition can look like | inversion of the parser from its result; refuted for parentheses next to a known macro; metadata: every signature traced back to the bytes of its object |
| C93 | `.config` files as lists of lines, `scripts/config` specified on them (`Spec/ConfigTool`) | C63 transported to the edited file; C69 phase by phase with C78 (no option is given two values) |
| C94 | `argparse` as used by `parse_args` (`Model/Cli`); command lines as lists of items with a meaning (`Spec/Cli`) | both directions by induction on the items and on the parser's loop; statuses by tracing each failing action to an argument |
| C95 | `main` over a history of commands with arbitrary answers | a predicate on actions closed under sequencing, proved for every action of the program |
| C96 | PowerPC constructor, skip and number rules | case analysis; refuted before v5.0 |
| C97 | the script of the page (`Model/Page`): header classes, rows, clicks | refinement of a viewer specified by relations (`Spec/Page`), by induction on the clicks; hexadecimal reading of decimal texts preserves the order |
| C98 | `main` with the switch analysis in place (`MWorld.x86`: decoder, set orders) | C88 with the entries replaced by C46_success |
| C99 | `extractL`: the extraction in a writer monad with the calls of `logging`; `C99_same` ties it to `extractSyscalls` | exact list of texts per format; refuted for the silent empty result, the two lost warnings and the class byte |
| C100 | ripgrep as its manual describes it (`rgDir`, last matching glob wins, hidden files skipped) against the walk of `grep_recursive` | induction on the tree; exact set of files read by `rg`; refuted for files directly in excluded directories and for empty results |
| C101 | `grepMatch` on a permuted list of rows | the first best row is unique when no two rows of a syscall have the same rank; refuted otherwise |
| C102 | `Rejected`: the reasons, as an inductive predicate over images, with the lines told | case analysis of the constructor; `Tame`: nothing else raises those exceptions |
| C103 | `TableOf`, `numberBase`, `Convention`: tables of Linux and of syscall(2) | case analysis over the rows of the help; version order lemmas; refuted for aarch32 |
| C104 | `Sources`: debug information, files, KDIR, RDIR; `Leads`, `First`, `Wanted`, `Hopeless`, `Outside` | one invariant per loop of `extract_syscall_locations` (settled / to adjust / to grep); positions stay distinct and complete; refuted for a relative KDIR |
| C105 | `Spec/Marks`: tags, attributes, links and elements of a page read independently; `StandingOf` a location | composition of pieces of HTML with known tags; attributes of concrete tags by evaluation, of links by decoding |
| C106 | `Spec/Described`: shared prefixes, options, definitions at a line, metadata objects, special syscalls, all in terms of the image and files | the run is decomposed into its intermediate lists; C21, C61, C47–C52, C92 and C40 are lifted through location and signature extraction and the final filter |
| C107 | `Spec/Ends`: strings and definitions without an end, in a file; loops that do not end are the value `hang` of the model | every function of the model is shown not to give `hang` unless one of the three loops that can does; lifted to `main` with the history of commands |
| C108 | `Spec/Prefer`: an ordered list of classes of names for each architecture and ABI, the best named symbol of a list | each pairwise preference is the comparison of classes (combinators for prefix, compat, lower case); the loop over the sorted symbols keeps the best of those seen |
| C109 | `Spec/Record`: levels and texts shown for each way to read a table, for repeated, unresolved and unprefixed entries and for the final pass | the log of each part of `extractL` (Model/Diag) is the specified list; stability of the sort of repeated addresses |
| C110 | `Model/Log`: formats, level names and colors of `setup_logging`, `eprint`, the SIGINT handler; `Spec/Log`: a reader of log lines, a terminal that interprets color sequences | lists of events; the terminal after each event is back in its plain state |
| C111 | all Kconfig tables; `Spec/Enabled`: first version of each option on each architecture | ranges of the tables cover the rest of the range of the dependency (checked by the kernel on the tables), lifted to all versions by a lemma on chains of ranges; `.config` file by C93 |
| C112 | `do_popen`, `run_command`, `ensure_command` with messages, Python `repr`, `textwrap.indent` (`Model/Popen`); `Spec/Popen`: a reader of Python literals and of the message | round trip by induction over the string and the words; indentation undone line by line |
| C113 | location extraction once more with its messages (`Model/LocDiag`); `Spec/LocDiag`: the messages from the outcome | erasure to `Model/Location`; each loop tells nothing or ends the program; the last loop by induction, hits as a permutation of the grepped syscalls |
| C114 | two worlds that differ in addr2line only | each loop unchanged by another addr2line; the three kinds of questions from the invariants of the work lists |
| C115 | the three readers of source files on bytes (`Model/Source`), decoding in chunks of any size | UTF-8 lemmas; lines of an encoded text are the encoded lines; refuted by two files |
| C116 | the analysis of the switch once more with its errors (`Model/EmuDiag`); `Spec/EmuDiag`: why an instruction stops it, what does not fit together | erasure to `Model/X86Emu`; stepwise: an instruction is understood or `Stops` holds; conflicts from `emulate_exact` |
| C117 | counting and sorting skipped instructions (`Model/Skipped`), with a parameter saying if instructions have an order | counts by induction; a tie is two instructions occurring equally often |
| C118 | `__extract_syscalls` with the messages of all its parts (`Model/Whole`); `Spec/Whole`: cases of the location messages | erasure to `Model/Kernel`; texts accepted by `good_definition` start with a macro or `asmlinkage` that signature.py knows; composition of C109, C113, C116 |
| C119 | `edit_config_check_deps` with the calls of `logging` (`Model/DepDiag`); `Spec/DepDiag`: texts of the messages | erasure to `Model/Kconfig`; induction over the dependencies as for C63; cancellation at spaces for reading texts back |
| C120 | the whole program with everything it writes to standard error (`Model/Stderr`: `main`, the build and the commands as actions that write events); `Spec/Stderr`: the known endings | erasure to `Model/Main`; a calculus of actions that tell why they fail, closed under sequencing, with the functions that never exit (`Lemmas/Stderr2`); exact events of successes by inversion |
| C121 | `Spec/Repro`: the same world with other iteration orders of sets (`rehash`) | two references at one address treat every entry alike; counts and sorts by injective keys do not depend on the order; same for messages up to a permutation (`Lemmas/Repro`, `Repro2`, `Repro3`) |
| C122 | `Model/Crash`: the Makefile on disk statement by statement, SIGINT at any set of moments, all contents recorded; `Spec/Crash`: table of what is left | outcomes of patching and restoring for all sets of SIGINTs, composed by cases (`Lemmas/Crash`); refinement of `Model/Build` |
| C123 | `Spec/Later`: histories of runs, killed or not, of `Model/Crash` | what is left has no such line any more (`OnlyFlag.changed`), induction over the history from C122 |
| C124 | `Spec/Defined`: prefixes made by the macros of Linux, per architecture | translation of each prefix by cases; then C106 |
| C125, C126 | `Model/Object`: a `Kernel` object with its caches, used any number of times, each time with another outside; `Spec/Object`: expected replies, the last answer of the tree | invariants over sequences of uses; `adjust_abi` twice is once; `C126_same`: the methods are those of `Model/Build` |
| C127 | `Model/Pattern`: the texts given to `re` as in the code, and a reader of them; `Spec/Regex`: what an expression matches (a relation) and all ways in order of preference | the reader works piece by piece, a name between fixed texts; two expressions with the same factors, groups aside, find the same |
| C128 | `Model/Shared`: processes as state machines, one step for each read or write of the Makefile, run by a schedule; `Spec/Shared`: what damage is possible, when processes are apart | invariant of all processes over the schedule: a damaged Makefile has the line, if at all, where it was; one invariant for the process that is busy and one for the others; a measure of the turns left |
| C129 | `Spec/Stub`: forms of code that only returns an error | PowerPC by induction over the instructions, the rest by cases; C35 for the list |
| C130 | `Spec/Url`: how a browser reads an address; links of a row as in C105 | reading back an address made of plain names; the tag of a version is a plain name; witnesses |
| C131 | `Spec/Table`: a reader of tables cutting the lines where the titles begin | from the layout of C70: offsets of the titles, cells without padding, cells read back; witnesses |
| C132 | `main` run with each format; `Spec/Formats`: rows and objects that agree | all monadic steps but the last do not look at the format; reading back as in C131 and C71; witness |
| C133 | constructors of all classes for any ABI text | cases on class, ABI and width; rows of the help as in C27; witness |
| C86 | constructors of all archs against the help text | case analysis over rows, version order lemmas; refuted at v3.7 on arm |

None of the listed properties was found impossible to express.

## 4. Trusted base

* Lean 4.33.0 kernel. Every theorem depends on at most `propext`, `Classical.choice` and `Quot.sound`; no axioms are added,
  there is no `sorry`, and nothing uses `native_decide` or `bv_decide`. Finite tables and witnesses use `decide +kernel`,
  that is, evaluation by the kernel.
* The transcription from Python to Lean. Each definition cites the file and lines it models and states its simplifications.
* The Python semantics in `Py`, for ASCII `\w` and `\d`; `.decode()` is strict UTF-8. For `re`: the reading of expressions in `Model/Pattern`
  (`C127_definition_partial`, `C127_row_partial`, `C127_grep`, `C127_fixed`, `C127_flags` prove that the expressions used elsewhere are what the
  texts in the code mean), and the meaning of expressions in `Spec/Regex`. The matcher in `Model/Regex` need not be trusted: it finds
  exactly what the relation `Way` allows (`mem_ways`), the preferred way (`match_is_first`) at the first position (`search_some`,
  `search_none`), in `Props/Regex`.

Modelled: `utils.py`, `elf.py`, `syscall.py`, `signature.py`, `location.py`, `kconfig.py`, `kconfig_options.py`, `kernel.py`,
`output.py` with the HTML template and its script, `arch/*.py`, `__main__.py`; of the standard library, the part of `argparse` (CPython 3.11.10,
same text in 3.12.3) that `parse_args` uses, option matching and consumption of arguments.

Not modelled:

* external tools (`readelf`, `addr2line`, `rg`, `make`, `git`, `gcc`, `scripts/config`): their answers are parameters; for C100 `rg` is
  modelled after its manual (which directories its ignore files exclude is a parameter, its regular expressions find the lines Python's
  do, and it does not search a piped standard input);
* `iced_x86` (the input of the emulator are decoded instructions) and `jinja2` (the template is transcribed as a function;
  line statements as documented);
* the texts of help, version and usage messages, log messages other than those of `Diag`, `LocDiag`, `EmuDiag`, `Whole`, `Popen` (except which levels are shown), colors, the elapsed time, the content of the CSS include.

Simplifications: source files are lists of lines of text (justified by C115 for UTF-8 files without stray carriage returns); commands do not change KDIR/Makefile and a missing Makefile is not modelled; in `Model/Build` one interruption at a few points and none inside exit handlers (`Model/Crash` has all of them); `str.lower` is
ASCII; the commands of the location extraction are not part of the history of commands; the section table of an image is
read right after its symbols; the JSON reader of the specification knows natural numbers only.

## 5. Findings

Properties that are false of the code (`..._refuted` or a theorem giving the failing cases):

| Id | What happens |
|---|---|
| C03 | `VersionedDict` keeps serving a cached value after `add` |
| C10 | `e_flags` is read at the ELF32 offset in ELF64 files |
| C15 | reading a string without a NUL byte before the end of the file never ends |
| C16 | an object symbol at the odd address of a Thumb function is returned as the next symbol |
| C18 | a two-component version has no tag (ValueError); breaks JSON and HTML output too (C71) |
| C25 | a little-endian PowerPC image is detected as PowerPC and then fails the assertion in `matches()` |
| C26 | an ARM image marked EABI by its flags, without the OABI table, is reported as OABI: the flags are tested, but the result is overwritten in all cases (arm.py:70-72) |
| C33 | of symbols with the same name only the last row is kept |
| C36 | an unresolved table entry always fails the assertion at kernel.py:496 |
| C37 | a table of only ni_syscalls raises ValueError from `max()` |
| C41 | in 64-bit x86 `mov eax, -38; ret` is discarded although rax is then 0xffffffda, not an error (it is one in eax) |
| C42 | PowerPC code that returns with the stack pointer moved, or that branches elsewhere first, is discarded |
| C43 | a ni_syscall of size 0 as reference makes every syscall of the image a dummy |
| C46 | two different branches to the default case, or one only reached by returning from a call: nothing is extracted |
| C50 | reading a signature never ends if no line from there on ends with a closing parenthesis |
| C54 | the definition of a function returning plain `unsigned` is accepted for another name (type and name may be glued) |
| C57 | definitions through architecture-specific macros are found by grepping and then never used |
| C58 | vaddr + size - 2 is never asked for; for size 3 `addr2line` is run without addresses |
| C65 | the class-level Kconfig tables are shared and changed by each instance |
| C66 | a Makefile with carriage returns is not restored exactly |
| C67 | the second attempt of a build is not covered by the exit handler; the Makefile can be left patched or empty |
| C72 | with only empty known signatures the table has rows of different widths; without known signatures `max()` fails |
| C74 | `--checkout auto` is ignored with `--build`, `--config` and `--clean` |
| C75 | `--clean` without `--arch` raises ValueError |
| C79 | AttributeError at location.py:409 when the last inner address has no file and an earlier one had a wrong location |
| C80 | `Popen` is called without `stdin=PIPE`: input never reaches `make oldconfig` |
| C81 | relative KDIR/OUTDIR: different `.config` files are edited, read and built |
| C90 | KDIR relative, or RDIR above KDIR: files below the directory of the image are looked for in `KDIR/KDIR/...`; locations are lost or found by grepping only |
| C92 | next to `SC_ARG64(..)` and the like, parentheses elsewhere in the list are accepted: an unknown macro is reported as a type (`SYSCALL_DEFINE3(x, SC_ARG64(off), OTHER(a), b)` gives `OTHER(a) b`) |
| C87 | sections with other characters than letters, digits, `_` and `.` in their name are not seen |
| C96 | before v5.0 the table of the SPU is read as an interleaved one: odd entries are lost and the other numbers halved |
| C99 | when every entry is a dummy, skipped or in kernel/sys_ni.c, the program ends with status 1 without an error; the warning at kernel.py:206 is replaced by a traceback of the logger (four arguments, three conversions); the check at kernel.py:398 never reports; an invalid class is reported with the byte order (elf.py:69); the text about a syscall assumed unimplemented is lost when its line is unknown |
| C100 | with `rg` installed, files directly in excluded directories (`lib/d.c`, `tools/x.c`) are searched, without it they are not; with `rg` a search that finds nothing ends the program (`ensure_command`, status 1 of `rg`) |
| C101 | two definitions with the same rank: the first one found wins, so the location depends on the order of the search (`mmap_pgoff` in mm/mmap.c and mm/nommu.c) |
| C103 | for `arm64-aarch32` the calling convention printed is that of 64-bit programs (`w8`, `x0`-`x5`); 32-bit programs use `r7`, `r0`-`r6` |
| C104 | with a relative KDIR nothing is ever searched for in the sources: location.py:287 compares relative file names with the resolved KDIR |
| C107 | not every run ends: an image with an unsized `linux_banner` and no zero byte after it is read for ever (elf.py:161); so is a source file in which no line from the definition on ends with `)` (signature.py:49), e.g. `SYSCALL_DEFINE1(...) {` in a small file |
| C110 | `-qqqq` is documented as "no standard error output whatsoever", but an interruption (and any uncaught exception) is still reported on standard error |
| C111 | the options `EPOLL`, `MULTIUSER`, `SWAP`, `CACHESTAT_SYSCALL`, `QUOTACTL`, `TMPFS` and `MMU`, named in the output as needed by some syscalls, are never turned on by the configuration (it relies on their defaults) |
| C112 | when `readelf`, `addr2line`, `rg` or the compiler does not exist, `do_popen` calls `exists()` on `None`: AttributeError instead of the message |
| C112 | a failing command is shown as a Python list or tuple (`PosixPath('...')` included) although the changelog of v0.7 says commands are pretty printed instead |
| C113 | `adjust_line` has a message for source files that do not exist, but callers check `is_file()` first: with incomplete sources nothing is told and the location counts as unknown |
| C114 | a function of three bytes that is not located by its ends, or an empty list of syscalls, makes systrack run `addr2line` without addresses: it then reads the terminal |
| C115 | definitions are checked in binary mode but signatures are read in text mode: a lone carriage return above makes systrack read the signature of another line, and a Latin-1 byte above ends the program with UnicodeDecodeError |
| C116 | one unsupported instruction anywhere in the dispatch function, even if never reached, makes the extraction give nothing (`C116_unreached`) |
| C117 | sorting the skipped instructions for a debug message compares instructions when counts are equal; if the disassembler's instructions have no order (as far as we know), `push rbp; mov rbp, rsp` in the dispatch function ends the program with TypeError |
| C120 | when every entry of the syscall table turns out to be a dummy or is dropped, the run ends with status 1 and no message says that no syscall was found (__main__.py:283-284) |
| C120 | one `-q`, documented as "no info", silences `eprint` altogether, so that e.g. a missing vmlinux gives status 1 and an empty standard error |
| C121 | with two ni_syscall functions of different sizes at one address and no preference between them, the hash seed of the Python process decides which one is the reference, and so which syscalls are dropped: the same command can end with status 0 or 1 (kernel.py:336) |
| C121 | the order of the messages about addresses found several times depends on the hash seed (x86 without a table) |
| C122 | a second Ctrl-C while the exit handler restores the Makefile leaves it empty (kernel.py:604-611) |
| C122 | the Makefile is restored by emptying and rewriting it: a run killed in between leaves it cut off |
| C123 | a Makefile left with -O0 or -O1 by an interrupted run is used by all later builds, also without `--disable-opt`, and never repaired |
| C124 | when twenty syscalls of the table share a second prefix, e.g. `sys_io_`, it is removed too (`io_setup` is listed as `setup`); with fewer than twenty entries no prefix is removed (syscall.py:43-61) |
| C126 | a `Kernel` object made for building never gets an image: `syscalls`, `can_extract_location_info` and `can_extract_signature_info` raise AttributeError even after a successful `build()` (kernel.py:152-167) |
| C127 | names are spliced into regular expressions without `re.escape`: a symbol with a parenthesis makes `good_definition` raise `re.error`, and `read.part.0` accepts a definition of `read_part_0` (location.py:121, 145-164) |
| C128 | the Makefile is not locked: two runs with `--disable-opt` in one source tree at the same time may leave it without optimisation for good, or cut off, although nobody was interrupted; a run without the option may build from the patched Makefile (kernel.py:587-611, 686-710) |
| C130 | file names are not percent-encoded in the links of the HTML page: the link of `fs/%41.c` leads to `fs/A.c` (templates/syscall_table.html:42, 50) |
| C131 | an argument with a comma (a function pointer) looks like two in the text table, and a file `a.c:1` like line 1 of `a.c` (output.py:43-46, 61) |
| C132 | without any known signature `-f html` ends with a traceback (ValueError of `max`), `-f text` and `-f json` succeed (output.py:111) |
| C133 | the constructors accept a 64-bit ABI for 32-bit PowerPC and RISC-V kernels (powerpc.py:59, riscv.py:27) |
| C86 | the help says `defconfig` for Linux <= v3.7 on arm; v3.7 is built from `multi_v7_defconfig` |

Limits stated by theorems of properties that hold otherwise: rows whose size `readelf` prints in hexadecimal are dropped
(`C11_hex_size_dropped`); an unsized table running into the end of the file raises struct.error (`C30_unsized_eof`).

Seen while reading, not stated as theorems unless named: `* * *` is joined into one token in signatures; an option to be set
to an empty value counts as absent in the dependency check; a missing command run without a directory raises AttributeError instead
of exiting with 127 (utils.py:182-193); kernel.py:398 compares integers with symbols; kernel.py:206 passes wrong arguments
to `logging.warn`; the PowerPC esoteric options lack the `CONFIG_` prefix; a version older than the architecture supports is
an unhandled AssertionError (`C77_old_version`); empty output of `gcc --version` is an IndexError; an empty `--checkout` is
ignored; line 0 of `addr2line` reads line 1; the text output leaves out line 0.

## 6. How to read the log of wrong programs

`seeded/LOG.jsonl` has 732 attempts: 517 edits written by hand and 215 made by a script from the text of the model.

- `failed_declarations` is what Lean reported. A build ends at the first modules that fail, and many were ended early, so this
  list is what was seen first and not everything that would fail.
- `theorems_failed` is computed, not observed: the theorems of `MANIFEST.json` that use one of the failed declarations, by the
  dependencies of the present proofs. It is computed again when theorems are added, so it names theorems newer than the attempt.
- In 145 attempts a claimed theorem failed itself. In 531 only lemmas it rests on did. A lemma that no longer checks shows that the
  proof as written does not go through, which is weaker than showing that the claim is false of the edited program.
- In 4 of those 531 (E18, KN03, CR04, B0004) no claimed theorem uses the lemma, so `theorems_failed` is empty.
- In 6 only an example failed (A18, AR18, AR82, A0043, D0082, D0214). Their notes say what fails after it; A18/AR18 and D0082/AR82 were
  checked in one edited copy, with the examples removed.
- In 50 nothing failed. 39 of them led to a new or stronger theorem, named in `tightened`. Not every one of these was run again
  afterwards. The other 11 were judged equivalent, or in dead code, by reading; the note gives the reason.
- `claim` was written beforehand for edits made by hand. For those made by the script it was filled in afterwards, from the
  theorems that failed or were tightened, so there it is no prediction.
