import Verif.Model.Build
import Verif.Model.Output
import Verif.Model.X86Emu
/-! # Model of the command line program, /repo/src/systrack/__main__.py

Command line parsing itself (argparse, lines 30-86) is in `Model/Cli`: `Args` is what it returns. Not modelled:
log messages (except which of them are shown, `setupLogging`), colors, the elapsed time.
The commands of the location extraction (`addr2line` at location.py:15 and `rg` at location.py:106, the only ones)
are answered by the parameters of `LEnv` and are not part of the history of commands. -/
set_option autoImplicit false

namespace Verif

/-- __main__.py:30-86 the command line, parsed -/
structure Args where
  vmlinux : Option Str := none
  kdir : Option Str := none
  arch : Option Str := none
  build : Bool := false
  config : Bool := false
  clean : Bool := false
  cross : Option Str := none
  out : Option Str := none
  format : Format := .text
  absolutePaths : Bool := false
  remap : Option Str := none
  checkout : Option Str := none
  disableOpt : Bool := false
  quiet : Nat := 0
  verbose : Nat := 0

/-- what is found, and done, at the output directory: __main__.py:207-218 -/
inductive OutDir where
  | notADirectory
  | mkdirFails (reason : Str)
  | usable
  deriving DecidableEq

/-- The outside, for the whole program; answers may depend on the commands run before. -/
structure MWorld extends World where
  /-- `sys.argv[0]` -/
  prog : Str
  outDir : List Run → Path → OutDir
  /-- `path.is_file()` -/
  isFile : List Run → Path → Bool
  /-- `command_available` -/
  available : List Run → Str → Bool
  /-- the content of a file, `none` when it cannot be opened -/
  content : List Run → Path → Option Bytes
  /-- see `LEnv`; the fields `haveAddr2line` and `elfPath` are set by the program -/
  locEnv : List Run → LEnv
  /-- see `KEnv` -/
  niOrder : List Symbol → List Symbol
  /-- see `extractVaddrs` -/
  x86 : X86Env
  /-- see `outputHtml` -/
  jinja : Bool
  css : Str
  js : Str

structure MState where
  b : BState := {}
  /-- lines written to standard error by `eprint` -/
  err : List Str := []
  /-- directories created (or found) by `mkdir` -/
  dirs : List Path := []
  /-- what was written to standard output -/
  out : Option Str := none
  /-- the class-level tables -/
  store : KStore := initialStore

/-- actions of the program -/
def MM (α : Type) := MState → Res α × MState

def MM.pure {α : Type} (x : α) : MM α := fun s => (.ok x, s)

def MM.bind {α β : Type} (m : MM α) (f : α → MM β) : MM β := fun s =>
  match m s with
  | (.ok x, s') => f x s'
  | (.error e, s') => (.error e, s')

instance : Monad MM where
  pure := MM.pure
  bind := MM.bind

def MM.raise {α : Type} (e : Exc) : MM α := fun s => (.error e, s)

def MM.lift {α : Type} (r : Res α) : MM α := fun s => (r, s)

def MM.modify (f : MState → MState) : MM Unit := fun s => (.ok (), f s)

def MM.get : MM MState := fun s => (.ok s, s)

/-- an action of Model/Build -/
def MM.ofB {α : Type} (m : BM α) : MM α := fun s =>
  match m s.b with
  | (r, b) => (r, { s with b := b })

/-! ## Verbosity -/

/-- What __main__.py:88-130 `setup_logging` sets: the level of the root logger, silent mode, high verbosity. -/
structure Verbosity where
  level : Nat
  silent : Bool
  high : Bool
  deriving DecidableEq, Repr

/-- __main__.py:88-130 -/
def setupLogging (quietness verbosity : Nat) : Verbosity :=
  let q := if verbosity > 0 then 0 else quietness
  let high := decide (verbosity > 0) && decide (verbosity ≥ 3)
  let silent := decide (q ≥ 1)
  let q := if q ≥ 1 then q - 1 else q
  let adj : Int := (q : Int) - (verbosity : Int)
  ⟨(max (30 + 10 * adj) 0).toNat, silent, high⟩

/-- Python's logging: a record is handled when its level reaches that of the root logger -/
def Verbosity.shows (v : Verbosity) (levelno : Nat) : Bool := decide (levelno ≥ v.level)

/-- utils.py:134-139 `eprint`, with the arguments already joined -/
def eprint (v : Verbosity) (msg : Str) : MM Unit :=
  if v.silent then MM.pure () else MM.modify fun s => { s with err := s.err ++ [msg] }

/-! ## Commands -/

/-- line boundaries of `str.splitlines` -/
def isLineEnd (c : Char) : Bool :=
  c == '\n' || c == '\r' || c == '\x0b' || c == '\x0c' || c == '\x1c' || c == '\x1d' || c == '\x1e' ||
  c == '\u0085' || c == '\u2028' || c == '\u2029'

/-- `str.splitlines`; the second argument is the current line -/
def splitLinesGo : Str → Str → List Str
  | [], cur => if cur.isEmpty then [] else [cur]
  | '\r' :: '\n' :: cs, cur => cur :: splitLinesGo cs []
  | c :: cs, cur => if isLineEnd c then cur :: splitLinesGo cs [] else splitLinesGo cs (cur ++ [c])

/-- `str.splitlines` -/
def splitLines (s : Str) : List Str := splitLinesGo s []

/-- utils.py:285-289 `gcc_version` -/
def gccVersion (w : MWorld) (cmd : Str) : MM Str := do
  let out ← MM.ofB (ensureCommand w.toWorld [cmd, cs!"--version"] none none)
  match splitLines out with
  | [] => MM.raise .index
  | l :: _ => MM.pure (strip l)

/-- utils.py:291-295 `git_checkout` -/
def gitCheckout (w : MWorld) (kdir : Option Path) (ref : Str) : MM Unit := do
  let _ ← MM.ofB (ensureCommand w.toWorld [cs!"git", cs!"checkout", ref] kdir none)
  MM.pure ()

/-! ## Instantiation -/

/-- kernel.py:114-133 the first reading of `version` without a vmlinux -/
def firstVersion (w : World) (kdir : Path) : BM Ver := do
  let out ← ensureCommand w [cs!"make", cs!"kernelversion"] (some kdir) none
  match versionFromStr out with
  | none => BM.raise (.named "KernelVersionError")
  | some v => do
    BM.modify fun s => { s with version := some v }
    BM.pure v

/-- kernel.py:44-83 `Kernel.__init__` without a vmlinux, as called at __main__.py:232 -/
def newBuilder (w : MWorld) (archName : Option Str) (kdir outdir : Option Path) (cross : Str) : MM Builder :=
  match kdir, archName with
  | none, _ => MM.raise .value
  | some _, none => MM.raise .value
  | some k, some n => do
    let v ← MM.ofB (firstVersion w.toWorld k)
    let s ← MM.get
    let p ← MM.lift (archFromNameSt s.store n v)
    MM.modify fun s => { s with store := p.2 }
    MM.pure ⟨k, outdir, some cross, p.1, p.2⟩

/-- elf.py:52-148 `ELF(vmlinux)`. Simplification: the section table is read right after the symbols (and not when first
needed). -/
def loadElf (w : MWorld) (vmlinux : Path) : MM Elf := do
  let s ← MM.get
  match w.content s.b.hist vmlinux with
  | none => MM.raise .fileNotFound
  | some data => do
    let h ← MM.lift (parseElfHeader data)
    let symOut ← MM.ofB (ensureCommand w.toWorld [cs!"readelf", cs!"-Ws", vmlinux.str] none none)
    if (extractSymbols h.machine (splitLines symOut)).1.isEmpty then MM.raise (.named "KernelWithoutSymbolsError")
    else do
      let secOut ← MM.ofB (ensureCommand w.toWorld [cs!"readelf", cs!"-WS", vmlinux.str] none none)
      MM.lift (Elf.load data secOut (splitLines symOut))

/-- A `Kernel` object for a vmlinux. -/
structure Analysis where
  elf : Elf
  arch : Arch
  version : Ver

/-- kernel.py:44-83 `Kernel.__init__` with a vmlinux, as called at __main__.py:275. The version comes from the ELF, so
the answer of `make` is never asked for (`kernelInit_no_make`). -/
def newAnalysis (w : MWorld) (archName : Option Str) (vmlinux : Path) (kdir : Option Path) : MM Analysis := do
  let e ← loadElf w vmlinux
  let a ← MM.lift (kernelInit archName (some e) kdir.isSome (.error .hang))
  let v ← MM.lift (kernelVersion (some e) kdir.isSome (.error .hang))
  MM.pure ⟨e, a, v⟩

/-- what `instantiate_kernel` prints for an exception: `none` when it is not caught. The text of KernelArchError
is that of the two places raising it (kernel.py:67 and kernel.py:78-79). -/
def initMessages (prog : Str) (archName : Option Str) (detected : Option (Kind × Bool × List Str)) (e : Exc) : Option (List Str) :=
  if e = .named "KernelVersionError" then
    some [cs!"Unable to determine kernel version!",
      cs!"Did you specify a valid kernel source directory (--kdir) or vmlinux path?"]
  else if e = .named "KernelArchError" then
    some [match archName, detected with
        | none, none => cs!"Failed to detect kernel architecture/ABI"
        | none, some _ => cs!"Architecture None does not match provided vmlinux"
        | some n, _ => cs!"Architecture " ++ n ++ cs!" does not match provided vmlinux",
      cs!"See '" ++ prog ++ cs!" --arch help' for more information"]
  else if e = .named "KernelWithoutSymbolsError" then
    some [cs!"The provided kernel image has no symbols, which are necessary for Systrack to work.",
      cs!"You can try unstripping the image with tools such as \"vmlinux-to-elf\"."]
  else if e = .named "KernelMultiABIError" then
    match detected with
    | some (k, _, abis) =>
      some [cs!"Detected architecture: " ++ k.name, cs!"Detected ABIs: " ++ joinWith cs!", " abis,
        cs!"This kernel was built with support for multiple syscall ABIs.",
        cs!"Select one using --arch NAME (see --arch HELP for more info)."]
    | none => none
  else none

/-- several `eprint` -/
def eprints (v : Verbosity) : List Str → MM Unit
  | [] => MM.pure ()
  | l :: ls => do
    eprint v l
    eprints v ls

/-- __main__.py:132-156 `instantiate_kernel` around a constructor call; `detected` is `arch_from_vmlinux` -/
def catchInit {α : Type} (w : MWorld) (v : Verbosity) (archName : Option Str) (detected : Option (Kind × Bool × List Str))
    (m : MM α) : MM α := fun s =>
  match m s with
  | (.ok x, s') => (.ok x, s')
  | (.error e, s') =>
    match initMessages w.prog archName detected e with
    | none => (.error e, s')
    | some ls => (eprints v ls >>= fun _ => MM.raise (.exit 1)) s'

/-- `arch_from_vmlinux` on the ELF of a path, for the messages -/
def detectedArch (w : MWorld) (vmlinux : Path) (s : MState) : Option (Kind × Bool × List Str) :=
  match (loadElf w vmlinux s).1 with
  | .ok e => (archFromVmlinux e).toOption.join
  | .error _ => none

/-! ## main -/

/-- `bool(s)` of an optional string -/
def given (o : Option Str) : Bool := match o with | some (_ :: _) => true | _ => false

/-- `Path(s) if s else None` -/
def pathOf (o : Option Str) : Option Path := match o with | some (c :: cs) => some (parsePath (c :: cs)) | _ => none

/-- __main__.py:207-218 the output directory, usable if there is none -/
def outState (w : MWorld) (hist : List Run) (outdir : Option Path) : OutDir :=
  match outdir with | some o => w.outDir hist o | none => .usable

/-- __main__.py:206-255 `--clean`, `--config`, `--build` -/
def mainBuild (w : MWorld) (v : Verbosity) (args : Args) (archName : Option Str) : MM Nat := do
  let cross := args.cross.getD []
  let kdir := pathOf args.kdir
  let outdir := pathOf args.out
  let s ← MM.get
  match outState w s.b.hist outdir with
  | .notADirectory => do
    eprint v (cs!"Output directory \"" ++ args.out.getD [] ++ cs!"\" already exists and is not a directory")
    MM.pure 1
  | .mkdirFails reason => do
    eprint v (cs!"Failed to create output directory \"" ++ args.out.getD [] ++ cs!"\": " ++ reason)
    MM.pure 1
  | .usable => do
    MM.modify fun s => { s with dirs := s.dirs ++ outdir.toList }
    let gcc := cross ++ cs!"gcc"
    if !w.available s.b.hist gcc then do
      eprint v (cs!"Command \"" ++ gcc ++ cs!"\" not found")
      eprint v cs!"Make sure your cross-compilation toolchain is in $PATH"
      MM.pure 127
    else do
      if args.config || args.build then do
        let ver ← gccVersion w gcc
        eprint v (cs!"Compiler: " ++ ver)
      else MM.pure ()
      let b ← catchInit w v archName none (newBuilder w archName kdir outdir cross)
      if args.build || args.config then do
        eprint v cs!"Cleaning kernel sources"
        MM.ofB (clean w.toWorld b)
        let ver ← MM.ofB (getVersion w.toWorld b)
        eprint v (cs!"Detected kernel version: " ++ versionStr ver cs!"make")
        eprint v cs!"Configuring kernel"
        MM.ofB (configure w.toWorld b)
        if args.build then do
          eprint v cs!"Building kernel (might take a while)"
          MM.ofB (build w.toWorld b args.disableOpt)
        else eprint v cs!"Done"
      else do
        eprint v cs!"Cleaning kernel sources"
        MM.ofB (clean w.toWorld b)
        eprint v cs!"Done"
      MM.pure 0

/-- __main__.py:297-308 one syscall: the path made relative to the source directory -/
def relativize (kdir : Option Path) (absPaths : Bool) (sc : Syscall) : Res Syscall :=
  match sc.file with
  | none => .ok sc
  | some f =>
    if kdir.isSome && !absPaths then do
      let f' ← maybeRel f kdir
      .ok { sc with file := some f' }
    else .ok sc

/-- `'s' if n > 1 else ''` -/
def plural (n : Nat) : Str := if n > 1 then cs!"s" else []

/-- __main__.py:310-319 the messages about the result, for the syscalls to be printed -/
def resultMessages (kdir : Option Path) (scs : List Syscall) : List Str :=
  let nGrepped := (scs.filter Syscall.greppedLocation).length
  let nNoLoc := (scs.filter fun sc => sc.file.isNone).length
  let nNoSig := (scs.filter fun sc => kdir.isSome && sc.signature.isNone).length
  [cs!"Found " ++ natRepr scs.length ++ cs!" implemented syscalls"] ++
  (if nGrepped ≠ 0 then [cs!"Found " ++ natRepr nGrepped ++ cs!" definition location" ++ plural nGrepped ++ cs!" through grepping"] else []) ++
  (if nNoLoc ≠ 0 then [cs!"Could not find definition location for " ++ natRepr nNoLoc ++ cs!" syscall" ++ plural nNoLoc] else []) ++
  (if nNoSig ≠ 0 then [cs!"Could not extract signature for " ++ natRepr nNoSig ++ cs!" syscall" ++ plural nNoSig] else []) ++ [[]]

/-- the environment of `Kernel.syscalls` after a history -/
def kenvOf (w : MWorld) (hist : List Run) (a : Arch) (e : Elf) (vmlinux : Path) (kdir rdir : Option Path) : KEnv :=
  let le := { w.locEnv hist with haveAddr2line := w.available hist cs!"addr2line", elfPath := vmlinux }
  { niOrder := w.niOrder, archVaddrs := extractVaddrs w.x86 (a.adjustAbi e),
    locate := extractLocations le (a.adjustAbi e) kdir rdir, files := le.files, kdir := kdir }

/-- __main__.py:263-264 the image to analyze; without both arguments `kdir / 'vmlinux'` would be a TypeError -/
def vmlinuxPath (args : Args) : Option Path :=
  match pathOf args.vmlinux with
  | some p => some p
  | none => (pathOf args.kdir).map fun k => k.join ⟨false, [cs!"vmlinux"]⟩

/-- __main__.py:278-281 the checkout of `--checkout auto`; the assertion holds since there is an ELF -/
def autoCheckout (w : MWorld) (v : Verbosity) (args : Args) (k : Analysis) : MM Unit :=
  if args.checkout = some cs!"auto" then do
    let tag ← MM.lift (versionTag k.version)
    eprint v (cs!"Checking out to " ++ tag)
    gitCheckout w (pathOf args.kdir) tag
  else MM.pure ()

/-- __main__.py:283-321 extraction and output -/
def mainReport (w : MWorld) (v : Verbosity) (args : Args) (k : Analysis) (vmlinux : Path) : MM Nat := do
  let kdir := pathOf args.kdir
  let s ← MM.get
  let scs ← MM.lift (extractSyscalls k.arch k.elf k.version
    (kenvOf w s.b.hist k.arch k.elf vmlinux kdir (pathOf args.remap)))
  if scs.isEmpty then MM.pure 1
  else do
    let scs ← MM.lift (mapRes (relativize kdir args.absolutePaths) scs)
    eprints v (resultMessages kdir scs)
    let text ← MM.lift (outputSyscalls w.jinja w.css w.js
      ⟨k.version, cs!"vmlinux", k.arch.adjustAbi k.elf, scs⟩ args.format)
    MM.modify fun s => { s with out := some text }
    MM.pure 0

/-- __main__.py:257-281 the analysis -/
def mainAnalyze (w : MWorld) (v : Verbosity) (args : Args) (archName : Option Str) : MM Nat := do
  let kdir := pathOf args.kdir
  if args.checkout = some cs!"auto" ∧ pathOf args.vmlinux = none then do
    eprint v cs!"Cannot perform auto-checkout without a vmlinux image!"
    MM.pure 1
  else
    match vmlinuxPath args with
    | none => MM.raise .type
    | some vmlinux => do
      let s ← MM.get
      if !w.isFile s.b.hist vmlinux then do
        eprint v (cs!"Unable to find vmlinux at \"" ++ vmlinux.str ++ cs!"\".")
        eprint v cs!"Build the kernel or provide a valid path."
        MM.pure 1
      else if !w.available s.b.hist cs!"readelf" then do
        eprint v cs!"Command \"readelf\" unavailable, can't do much without it!"
        MM.pure 127
      else do
        let k ← catchInit w v archName (detectedArch w vmlinux s) (newAnalysis w archName vmlinux kdir)
        eprint v (cs!"Detected kernel version: " ++ versionStr k.version cs!"vmlinux")
        autoCheckout w v args k
        mainReport w v args k vmlinux

/-- `str.lower` (simplification: ASCII letters) -/
def lower (s : Str) : Str := s.map Char.toLower

/-- __main__.py:195-321 what follows the checks -/
def mainRun (w : MWorld) (v : Verbosity) (args : Args) (archName : Option Str) : MM Nat := do
  if given args.checkout && decide (args.checkout ≠ some cs!"auto") then do
    eprint v (cs!"Checking out to " ++ args.checkout.getD [])
    gitCheckout w (pathOf args.kdir) (args.checkout.getD [])
  else MM.pure ()
  if args.clean || args.config || args.build then mainBuild w v args archName else mainAnalyze w v args archName

/-- __main__.py:158-321 `main`: the value returned is the exit status. `archHelp` is SUPPORTED_ARCHS_HELP. -/
def main (w : MWorld) (archHelp : Str) (args : Args) : MM Nat :=
  let v := setupLogging args.quiet args.verbose
  let archName := args.arch.map lower
  if archName.any (fun a => !dmem a supportedArchs) then
    if archName = some cs!"help" ∨ archName = some cs!"?" then do
      eprint v archHelp
      MM.pure 0
    else do
      eprint v (cs!"Unsupported architecture/ABI combination: " ++ archName.getD [])
      eprint v cs!"See --arch HELP for a list"
      MM.pure 1
  else if !given args.kdir && !given args.vmlinux then do
    eprint v cs!"Need to specify a kernel source direcory and/or path to vmlinux"
    eprint v cs!"See --help for more information"
    MM.pure 1
  else if !given args.kdir && (given args.checkout || args.config || args.build) then do
    eprint v cs!"Need to specify a kernel source direcory (--kdir)"
    MM.pure 1
  else if !given archName && (args.config || args.build) then do
    eprint v cs!"Need to specify an architecture/ABI combination (--arch)"
    eprint v cs!"See --arch HELP for a list"
    MM.pure 1
  else mainRun w v args archName

end Verif
