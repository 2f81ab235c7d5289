import Verif.Model.Kernel
/-! # Model of /repo/src/systrack/location.py (and the `syscall_def_regexp` methods)

The outside world is a parameter (`LEnv`): addr2line, ripgrep, the file system. `Syscall` objects are compared by
identity and mutated in place; here an object is its position in the list of syscalls, and the work lists hold
positions together with the (never changing) object fields. Log messages are left out, except that evaluating their
arguments can raise. Simplifications: decoding errors of source lines (see Model/Source) and symbolic links are not modelled; lines end
with a newline only. -/
set_option autoImplicit false

namespace Verif

/-! ## Regular expressions for definitions -/

/-- A syscall name spliced into a regular expression: names come from ELF symbols, where `.` and `$` are the only
characters special to `re`. (Other special characters are taken literally: a simplification.) -/
def nameRe : Str → Re
  | [] => .eps
  | c :: cs =>
    .seq (if c = '.' then .chr (fun x => x != '\n') else if c = '$' then .eol else .chr (fun x => x == c)) (nameRe cs)

/-- `\s*` -/
def reWs : Re := .star isSpace

/-- `\b` then `asmlinkage\s*(unsigned\s+)?\w+\s*` -/
def asmRe : Re :=
  .cat [.lit cs!"asmlinkage", reWs, .opt (.seq (.lit cs!"unsigned") (.plus isSpace)), .plus isWord, reWs]

/-- `\basmlinkage\s*(unsigned\s+)?\w+\s*` + r + `\s*\(` -/
def oddAsmRe (r : Re) : Re := .cat [.wordB, asmRe, r, reWs, .lit cs!"("]

/-- `|`.join -/
def altRe : List Re → Re
  | [] => .eps
  | [r] => r
  | r :: rs => .alt r (altRe rs)

/-- arch_base.py:318-335, arm.py:153-161, mips.py:152-173, powerpc.py:346-352, x86.py:601-610
`syscall_def_regexp(syscall_name)` -/
def Arch.defRe (a : Arch) (name : Str) : Option Re :=
  match a.kind with
  | .arm =>
    if a.abi ≠ cs!"oabi" then none
    else if startsWith name cs!"sys_oabi_" then some (oddAsmRe (nameRe name))
    else some (oddAsmRe (.seq (.lit cs!"sys_oabi_") (nameRe name)))
  | .mips =>
    let first :=
      if anyprefix name [cs!"sysm_", cs!"mipsmt_sys_"] then oddAsmRe (nameRe name)
      else oddAsmRe (.seq (.alt (.lit cs!"sysm") (.lit cs!"mipsmt_sys")) (.seq (.lit cs!"_") (nameRe name)))
    let rest :=
      if a.abi = cs!"n32" then
        if anyprefix name [cs!"sysn32_"] then [oddAsmRe (nameRe name)]
        else [oddAsmRe (.seq (.lit cs!"sysn32_") (nameRe name))]
      else []
    some (altRe (first :: rest))
  | .powerpc =>
    if a.abi ≠ cs!"ppc32" then none
    else some (.cat [.wordB, .lit cs!"PPC32_SYSCALL_DEFINE", .chr isDigit, reWs, .lit cs!"(", nameRe name, .wordB])
  | .x86 =>
    if a.abi ≠ cs!"x32" then none
    else if startsWith name cs!"sys32_x32_" then some (oddAsmRe (nameRe name))
    else some (oddAsmRe (.seq (.lit cs!"sys32_x32_") (nameRe name)))
  | _ => none

/-- the same methods without a name -/
def Arch.anyDefRe (a : Arch) : Option Re :=
  match a.kind with
  | .arm => if a.abi ≠ cs!"oabi" then none else some (oddAsmRe (.seq (.lit cs!"sys_oabi_") (.plus isWord)))
  | .mips =>
    some (altRe (oddAsmRe (.seq (.alt (.lit cs!"sysm") (.lit cs!"mipsmt_sys")) (.seq (.lit cs!"_") (.plus isWord))) ::
      (if a.abi = cs!"n32" then [oddAsmRe (.seq (.lit cs!"sysn32_") (.plus isWord))] else [])))
  | .powerpc =>
    if a.abi ≠ cs!"ppc32" then none
    else some (.cat [.wordB, .lit cs!"PPC32_SYSCALL_DEFINE", .chr isDigit, reWs, .lit cs!"("])
  | .x86 => if a.abi ≠ cs!"x32" then none else some (oddAsmRe (.seq (.lit cs!"sys32_x32_") (.plus isWord)))
  | _ => none

/-- location.py:145-149 `newstyle` -/
def newstyleRe (a : Arch) (name : Str) : Re :=
  .cat [.bol, if a.compat then .opt (.lit cs!"COMPAT_") else .eps, .lit cs!"SYSCALL", .opt (.lit cs!"32"),
    .lit cs!"_DEFINE", .chr isDigit, reWs, .lit cs!"(", nameRe name, .wordB]

/-- location.py:150 `oldstyle` -/
def oldstyleRe (name : Str) : Re :=
  .cat [.bol, asmRe, .lit cs!"sys", .opt (.lit cs!"32"), .lit cs!"_", nameRe name, .lit cs!"("]

/-- location.py:156-157 the full function name -/
def fullnameRe (name : Str) : Re := .cat [.bol, asmRe, nameRe name, reWs, .lit cs!"("]

/-- location.py:145-164 `good_definition` -/
def goodDefinition (a : Arch) (definition name : Str) : Bool :=
  if ((Re.alt (newstyleRe a name) (oldstyleRe name)).match? definition).isSome then true
  else if startsWith name cs!"sys_" && ((fullnameRe name).match? definition).isSome then true
  else match a.defRe name with
    | none => false
    | some r => (r.match? definition).isSome

/-! ## Files and lines -/

/-- location.py:166-174 `good_location`. `range(line - 1)` is empty for line 0; `next(f)` at the end of the file raises
StopIteration; `readline()` at the end of the file gives the empty string. -/
def goodLocationAt (fs : Files) (file : Path) (line : Nat) (a : Arch) (sc : Syscall) : Res Bool :=
  match fs file with
  | none => .error .fileNotFound
  | some lines =>
    if lines.length < line - 1 then .error .stopIteration
    else
      let definition := match lines.drop (line - 1) with
        | [] => []
        | l :: _ => l
      .ok (goodDefinition a definition sc.origname || goodDefinition a definition sc.name)

/-- `bytes.isspace` of one character -/
def isBSpace (c : Char) : Bool := let n := c.toNat; (9 ≤ n && n ≤ 13) || n == 32

/-- `bytes.rstrip()` -/
def brstrip (s : Str) : Str := (s.reverse.dropWhile isBSpace).reverse

/-- location.py:211-222 the inner loop from line index `j - 1` downwards: the line number of the signature, if any -/
def signatureAbove (lines : List Str) : Nat → Option Nat
  | 0 => none
  | j + 1 =>
    match lines[j]? with
    | none => none
    | some l =>
      match l.head? with
      | some c =>
        if isBSpace c then signatureAbove lines j
        else if c = '#' then signatureAbove lines j
        else some (j + 1)
      | none => some (j + 1)

/-- location.py:195-229 the outer loop at index `i - 1` (going down); `line` is the line asked for -/
def adjustGo (lines : List Str) (line : Nat) : Nat → Res Nat
  | 0 => .ok line
  | i + 1 =>
    match lines[i]? with
    | none => .error (.exit 1)
    | some l =>
      let l := brstrip l
      if i < line - 1 ∧ l = cs!"}" then .ok line
      else if l = cs!"{" then
        match signatureAbove lines i with
        | some n => .ok n
        | none => .ok (i + 1)
      else adjustGo lines line i

/-- location.py:176-229 `adjust_line` (line 0 is returned unchanged: the range is empty) -/
def adjustLine (fs : Files) (file : Path) (line : Nat) : Res Nat :=
  match fs file with
  | none => .error (.exit 1)
  | some lines => adjustGo lines line line

/-! ## addr2line -/

/-- `Path(s)`: empty and `.` components are dropped (a leading `//` is not modelled) -/
def parsePath (s : Str) : Path :=
  ⟨startsWith s cs!"/", (splitChar '/' s).filter fun p => !p.isEmpty && decide (p ≠ cs!".")⟩

/-- `p.parent` -/
def Path.parent (p : Path) : Path := ⟨p.abs, p.parts.dropLast⟩

/-- a file and a line, each possibly None -/
abbrev Loc := Option Path × Option Nat

/-- location.py:17-23 one row of the output of addr2line; anything but two fields is a ValueError (unpacking).
Simplification: `isdigit` is that of ASCII digits. -/
def parseLocRow (row : Str) : Res Loc :=
  match splitChar ':' row with
  | [file, line] =>
    if file = cs!"??" then .ok (none, none)
    else .ok (some (parsePath file), if !line.isEmpty && line.all isDigit then some (natOfDigits line) else none)
  | _ => .error .value

/-- The outside world, as seen by location.py. -/
structure LEnv where
  /-- `command_available('addr2line')` -/
  haveAddr2line : Bool
  /-- the rows printed by `addr2line -e elf addrs...` (or the exception of `ensure_command`) -/
  addr2line : List Nat → Res (List Str)
  /-- the path of the ELF -/
  elfPath : Path
  /-- existing files with their lines, each with its line end -/
  files : Files
  /-- `Path.resolve()` -/
  resolve : Path → Path
  /-- the rows found by grepping the kernel sources, see `grepRows` -/
  grep : Res (List Str)

/-- location.py:25-47 `smart_addr2line` of one parsed row. (With `srcdir` None the rows are passed on by line 40 and the
loop that follows finds the iterator exhausted.) -/
def smartLoc (elfPath : Path) (srcdir : Option Path) (loc : Loc) : Res Loc :=
  match srcdir with
  | none => .ok loc
  | some dir =>
    match loc.1 with
    | none => .ok loc
    | some f =>
      if f.isRelativeTo elfPath.parent then do
        let r ← f.relativeTo elfPath.parent
        .ok (some (dir.join r), loc.2)
      else .ok loc

/-- location.py:25-47 `smart_addr2line`: a generator, each item may raise when it is reached -/
def smartAddr2line (w : LEnv) (addrs : List Nat) (srcdir : Option Path) : Res (List (Res Loc)) := do
  let rows ← w.addr2line addrs
  .ok (rows.map fun row => do
    let loc ← parseLocRow row
    smartLoc w.elfPath srcdir loc)

/-- `list(generator)` -/
def forceAll {α : Type} : List (Res α) → Res (List α)
  | [] => .ok []
  | x :: xs => do
    let y ← x
    let ys ← forceAll xs
    .ok (y :: ys)

/-! ## grep -/

/-- location.py:73-78 `base_exp` -/
def baseRe (a : Arch) : Re :=
  .cat [.wordB,
    if a.compat then .cat [.opt (.lit cs!"COMPAT_"), .lit cs!"SYSCALL", .opt (.lit cs!"32")]
    else if a.bits32 then .seq (.lit cs!"SYSCALL") (.opt (.lit cs!"32"))
    else .lit cs!"SYSCALL",
    .lit cs!"_DEFINE", .chr isDigit, reWs, .lit cs!"("]

/-- location.py:80-84 `exp` -/
def grepRe (a : Arch) : Re :=
  match a.anyDefRe with
  | some odd => .cat [.alt (baseRe a) odd, reWs, .plus isWord]
  | none => .cat [baseRe a, reWs, .plus isWord]

/-- location.py:121 the expression for one syscall -/
def syscallGrepRe (a : Arch) (origname : Str) : Re :=
  .cat [.lit cs!":", baseRe a, nameRe origname, .chr (fun c => c == ',' || c == ')')]

/-- `str(path)` -/
def Path.str (p : Path) : Str :=
  if p.abs then '/' :: joinWith cs!"/" p.parts else if p.parts = [] then cs!"." else joinWith cs!"/" p.parts

/-- enumerate from a line number -/
def numberFrom {α : Type} : Nat → List α → List (Nat × α)
  | _, [] => []
  | n, x :: xs => (n, x) :: numberFrom (n + 1) xs

/-- location.py:49-56 `grep_file`; `rel` is the path below the root -/
def grepFile (exp : Re) (rel : List Str) (lines : List Str) : List Str :=
  (numberFrom 1 lines).filterMap fun p =>
    if (exp.search p.2).isSome then
      some (Path.str ⟨false, rel⟩ ++ cs!":" ++ natRepr p.1 ++ cs!":" ++ brstrip p.2)
    else none

/-- A directory tree (no links). -/
inductive Node where
  | file (lines : List Str)
  | dir (children : List (Str × Node))
  /-- devices, sockets, ... -/
  | other

/-- `path.match('.*')` and `path.match('*.c')` -/
def isHidden (name : Str) : Bool := startsWith name cs!"."
def isCFile (name : Str) : Bool := endsWith name cs!".c"

mutual
/-- location.py:58-70 `grep_recursive` of a directory at `rel` (below the root) -/
def grepDir (exp : Re) (exclude : List Str → Bool) (rel : List Str) : List (Str × Node) → List Str
  | [] => []
  | (name, node) :: rest =>
    (if isHidden name then [] else grepNode exp exclude (rel ++ [name]) (isCFile name) node) ++
      grepDir exp exclude rel rest
/-- location.py:67-70 one entry of the directory -/
def grepNode (exp : Re) (exclude : List Str → Bool) (rel : List Str) (isC : Bool) : Node → List Str
  | .file lines => if isC then grepFile exp rel lines else []
  | .dir children => if exclude rel then [] else grepDir exp exclude rel children
  | .other => []
end

/-- location.py:89-97 -/
def excludedTops : List Str :=
  [cs!"Documentation", cs!"drivers", cs!"lib", cs!"samples", cs!"sound", cs!"tools", cs!"usr"]

/-- location.py:89-102 membership in `exclude`; `archs` are the entries of `kdir/arch` -/
def excluded (a : Arch) (archs : List Str) (rel : List Str) : Bool :=
  match rel with
  | [d] => excludedTops.contains d
  | [d, x] => d == cs!"arch" && archs.contains x && x != a.kind.name
  | _ => false

/-- location.py:86-104 the rows found without ripgrep; `tree` is the content of kdir.
`(kdir / 'arch').iterdir()` raises if there is no such directory (NotADirectoryError for a file). -/
def grepTree (a : Arch) (tree : List (Str × Node)) : Res (List Str) :=
  match dget cs!"arch" tree with
  | some (.dir archs) => .ok (grepDir (grepRe a) (excluded a (archs.map Prod.fst)) [] tree)
  | some _ => .error (.named "NotADirectoryError")
  | none => .error .fileNotFound

/-- location.py:86-119 the list `out`: `rg` is the output of ripgrep if it is available (exit status 1, hence
`sys.exit(1)`, when nothing is found) -/
def grepRows (a : Arch) (rg : Option (Res (List Str))) (tree : List (Str × Node)) : Res (List Str) :=
  match rg with
  | some out => out
  | none => grepTree a tree

/-- a `bool` as an `int` -/
def boolNat (b : Bool) : Nat := if b then 1 else 0

/-- location.py:123-128 the sort key, as a pair -/
def grepKey (a : Arch) (l : Str) : Nat × Nat :=
  (boolNat (startsWith l cs!"arch"),
    if a.compat then boolNat (isInfix cs!"COMPAT" l) + boolNat (isInfix cs!"SYSCALL32" l)
    else if a.bits32 then boolNat (isInfix cs!"SYSCALL32" l)
    else 0)

/-- tuple order on keys -/
def keyLe (x y : Nat × Nat) : Bool := decide (x.1 < y.1) || (decide (x.1 = y.1) && decide (x.2 ≤ y.2))

/-- location.py:131 `out.sort(key=key, reverse=True)`: stable, largest keys first -/
def sortRows (a : Arch) (out : List Str) : List Str := sortBy (fun x y => keyLe (grepKey a y) (grepKey a x)) out

/-- a syscall object: its position in the list of syscalls, and its fields -/
abbrev Ref := Nat × Syscall

/-- location.py:134-135, 138 the first syscall (in order) whose expression is found in the row, and the others -/
def takeMatch (a : Arch) (row : Str) : List Ref → Option (Ref × List Ref)
  | [] => none
  | r :: rs =>
    if ((syscallGrepRe a r.2.origname).search row).isSome then some (r, rs)
    else match takeMatch a row rs with
      | none => none
      | some (x, rest) => some (x, r :: rest)

/-- location.py:136-137 `file, line = line.split(':')[:2]`, `int(line)` (digits only: that is what is printed) -/
def rowLocation (kdir : Path) (row : Str) : Res (Path × Nat) :=
  match splitChar ':' row with
  | file :: line :: _ =>
    if !line.isEmpty && line.all isDigit then .ok (kdir.join (parsePath file), natOfDigits line) else .error .value
  | _ => .error .value

/-- location.py:133-143 the generator over the sorted rows -/
def grepMatch (a : Arch) (kdir : Path) : List Str → List Ref → Res (List (Ref × Option (Path × Nat)))
  | [], todo => .ok (todo.map fun r => (r, none))
  | row :: rows, todo =>
    match takeMatch a row todo with
    | none => grepMatch a kdir rows todo
    | some (r, rest) => do
      let loc ← rowLocation kdir row
      let out ← grepMatch a kdir rows rest
      .ok ((r, some loc) :: out)

/-- location.py:72-143 `grep_kernel_sources`, given the rows found -/
def grepSources (w : LEnv) (a : Arch) (kdir : Path) (scs : List Ref) : Res (List (Ref × Option (Path × Nat))) := do
  let out ← w.grep
  grepMatch a kdir (sortRows a out) scs

/-! ## Location extraction -/

/-- location.py:263-266 `remap` -/
def remapPath (kdir : Path) (rdir : Option Path) (p : Option Path) : Res (Option Path) :=
  match p with
  | none => .ok none
  | some f =>
    match rdir with
    | some r => do
      let f ← maybeRel f (some r)
      .ok (some (kdir.join f))
    | none => .ok (some (kdir.join f))

/-- location.py:276 `not (file is None or not file.is_file() or line is None)` -/
def validLoc (fs : Files) (file : Option Path) (line : Option Nat) : Option (Path × Nat) :=
  match file, line with
  | some f, some l => if (fs f).isSome then some (f, l) else none
  | _, _ => none

/-- assignments to the fields of the object at a position -/
def setLoc (i : Nat) (file : Path) (line : Nat) (scs : List Syscall) : List Syscall :=
  scs.modify i fun sc => { sc with file := some file, line := some line, goodLocation := true }

/-- What a step asks for next. -/
inductive Next where
  | done | adjust | grep
  deriving DecidableEq, Repr

/-- `sc.symbol.size > n` decides between another adjustment and grepping -/
def nextBySize (n : Nat) (sc : Syscall) : Next := if sc.symbol.size > n then .adjust else .grep

/-- location.py:271-306 one round of the first loop: the changed syscall, `bad_paths`, the work list it goes to -/
def firstStep (w : LEnv) (a : Arch) (kdir : Path) (rdir : Option Path) (sc : Syscall) (loc : Loc) :
    Res (Syscall × Bool × Next) := do
  let file ← remapPath kdir rdir loc.1
  let sc := { sc with file := file, goodLocation := false }
  match validLoc w.files file loc.2 with
  | none => .ok (sc, false, nextBySize 1 sc)
  | some (f, l) => do
    let bad := !f.isRelativeTo (w.resolve kdir)
    let line ← adjustLine w.files f l
    let sc := { sc with line := some line }
    if sc.esoteric then .ok (sc, bad, .done)
    else do
      let good ← goodLocationAt w.files f line a sc
      if good then .ok ({ sc with goodLocation := true }, bad, .done)
      else .ok (sc, bad, nextBySize 1 sc)

/-- state of the work: the syscalls, `bad_paths`, the two work lists of a step -/
structure Work where
  scs : List Syscall
  bad : Bool
  adjust : List Ref
  grep : List Ref

/-- put a syscall on the list it goes to -/
def Work.push (k : Work) (n : Next) (r : Ref) : Work :=
  match n with
  | .done => k
  | .adjust => { k with adjust := k.adjust ++ [r] }
  | .grep => { k with grep := k.grep ++ [r] }

/-- location.py:271-306 the first loop over `zip(syscalls, locs)`, from position `i`; syscalls beyond the answers
of addr2line are left alone -/
def firstLoop (w : LEnv) (a : Arch) (kdir : Path) (rdir : Option Path) :
    Nat → List Syscall → List Loc → Work → Res Work
  | i, sc :: scs, loc :: locs, k => do
    let (sc', bad, n) ← firstStep w a kdir rdir sc loc
    firstLoop w a kdir rdir (i + 1) scs locs
      (Work.push { k with scs := k.scs ++ [sc'], bad := k.bad || bad } n (i, sc'))
  | _, scs, _, k => .ok { k with scs := k.scs ++ scs }

/-- sort by name (stable): location.py:320, 379 -/
def sortRefs (l : List Ref) : List Ref := sortBy (fun x y => strLe x.2.name y.2.name) l

/-- location.py:337-370 the second loop over `zip(to_adjust, new_locs)`; here `adjust` is `to_retry` -/
def secondLoop (w : LEnv) (a : Arch) (kdir : Path) (rdir : Option Path) : List Ref → List (Res Loc) → Work → Res Work
  | r :: rs, loc :: locs, k => do
    let loc ← loc
    let file ← remapPath kdir rdir loc.1
    match validLoc w.files file loc.2 with
    | none => secondLoop w a kdir rdir rs locs (k.push (nextBySize 2 r.2) r)
    | some (f, l) => do
      let line ← adjustLine w.files f l
      let good ← goodLocationAt w.files f line a r.2
      if good then secondLoop w a kdir rdir rs locs { k with scs := setLoc r.1 f line k.scs }
      else secondLoop w a kdir rdir rs locs (k.push (nextBySize 2 r.2) r)
  | _, _, k => .ok k

/-- the result of the inner loop of the third step -/
inductive Retry where
  | found (file : Path) (line : Nat)
  /-- all answers used up: `invalid`, and whether the last `file` is None -/
  | failed (invalid : Bool) (lastNone : Bool)

/-- location.py:385-402 the loop over the answers for one syscall -/
def retryLoop (w : LEnv) (a : Arch) (kdir : Path) (rdir : Option Path) (sc : Syscall) :
    List (Res Loc) → Bool → Bool → Res Retry
  | [], invalid, lastNone => .ok (.failed invalid lastNone)
  | loc :: locs, invalid, _ => do
    let loc ← loc
    let file ← remapPath kdir rdir loc.1
    match validLoc w.files file loc.2 with
    | none => retryLoop w a kdir rdir sc locs invalid file.isNone
    | some (f, l) => do
      let line ← adjustLine w.files f l
      let good ← goodLocationAt w.files f line a sc
      if good then .ok (.found f line)
      else retryLoop w a kdir rdir sc locs false false

/-- location.py:382 `range(real_vaddr + 1, real_vaddr + size - 2)` -/
def retryAddrs (sc : Syscall) : List Nat :=
  (List.range (sc.symbol.size - 3)).map (fun i => sc.symbol.realVaddr + 1 + i)

/-- location.py:381-411 the third loop; `rel(file)` at line 409 raises AttributeError when the last file is None -/
def thirdLoop (w : LEnv) (a : Arch) (kdir : Path) (rdir : Option Path) : List Ref → Work → Res Work
  | [], k => .ok k
  | r :: rs, k => do
    let locs ← smartAddr2line w (retryAddrs r.2) (some kdir)
    let res ← retryLoop w a kdir rdir r.2 locs true false
    match res with
    | .found f line => thirdLoop w a kdir rdir rs { k with scs := setLoc r.1 f line k.scs }
    | .failed invalid lastNone =>
      if !invalid && lastNone then .error .attr
      else thirdLoop w a kdir rdir rs (k.push .grep r)

/-- location.py:444 the order of grep results: not found first, then by name -/
def grepOrder (x y : Ref × Option (Path × Nat)) : Bool :=
  let fx := boolNat x.2.isSome
  let fy := boolNat y.2.isSome
  decide (fx < fy) || (decide (fx = fy) && strLe x.1.2.name y.1.2.name)

/-- location.py:446-459 the last loop -/
def fourthLoop (w : LEnv) (a : Arch) : List (Ref × Option (Path × Nat)) → List Syscall → Res (List Syscall)
  | [], scs => .ok scs
  | (_, none) :: gs, scs => fourthLoop w a gs scs
  | (r, some (f, line)) :: gs, scs => do
    let good ← goodLocationAt w.files f line a r.2
    if good then
      fourthLoop w a gs ((setLoc r.1 f line scs).modify r.1 fun sc => { sc with greppedLocation := true })
    else fourthLoop w a gs scs

/-- location.py:244-255 without kernel sources: `zip(syscalls, locs)` -/
def trustLocs : List Syscall → List Loc → List Syscall
  | sc :: scs, loc :: locs => { sc with file := loc.1, line := loc.2, goodLocation := false } :: trustLocs scs locs
  | scs, _ => scs

/-- location.py:231-459 `extract_syscall_locations`: the list of syscalls after the call -/
def extractLocations (w : LEnv) (a : Arch) (kdir rdir : Option Path) (scs : List Syscall) : Res (List Syscall) :=
  if !w.haveAddr2line then .ok scs
  else do
    let items ← smartAddr2line w (scs.map fun s => s.symbol.realVaddr) kdir
    let locs ← forceAll items
    match kdir with
    | none => .ok (trustLocs scs locs)
    | some kdir => do
      let k1 ← firstLoop w a kdir rdir 0 scs locs ⟨[], false, [], []⟩
      let toAdjust := sortRefs k1.adjust
      if !toAdjust.isEmpty && toAdjust.length == locs.length then .ok k1.scs
      else do
        let k2 ← (if toAdjust.isEmpty then .ok { k1 with adjust := [] } else do
          let items ← smartAddr2line w (toAdjust.map fun r => r.2.symbol.realVaddr + r.2.symbol.size - 1) (some kdir)
          secondLoop w a kdir rdir toAdjust items { k1 with adjust := [] } : Res Work)
        let k3 ← thirdLoop w a kdir rdir (sortRefs k2.adjust) k2
        if k3.bad then .ok k3.scs
        else do
          let grepped ← grepSources w a kdir k3.grep
          fourthLoop w a (sortBy grepOrder grepped) k3.scs

end Verif
