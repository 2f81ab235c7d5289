import Verif.Model.Log
import Verif.Model.Popen
import Verif.Model.Whole
import Verif.Model.DepDiag
/-! # What a whole run writes to standard error

`main` (__main__.py:158-321) and everything it calls, once more, with what is written to standard error: lines of `eprint`, records
of level WARNING and above, the line of the SIGINT handler and the traceback of an exception nobody catches. Records of level INFO
and DEBUG (shown with `-v` only) are left out, and so is what external commands write there themselves (only with `-vvv`). -/
set_option autoImplicit false

namespace Verif

/-- why a command cannot be started -/
inductive NoStart | noCommand | noDirectory | notADirectory
  deriving DecidableEq

/-- the outside, as far as only messages depend on it -/
structure Telling where
  /-- `str.isprintable` outside ASCII -/
  printable : Char → Bool
  /-- standard error of a command, after a history -/
  stderr : List Run → Run → Str
  /-- why a command without status could not be started -/
  noStart : List Run → Run → NoStart
  /-- the text of an instruction -/
  insn : Insn → Str
  /-- `str` of a symbol -/
  symbol : Symbol → Str
  /-- what `ensure_command` (utils.py:274) says of the addr2line or rg that fails during the search for locations -/
  helper : List Run → Str
  /-- how long the build took, in words -/
  took : List Run → Str
  /-- traceback of an exception -/
  traceback : Exc → Str

/-- level of a call -/
def Level.toLog : Level → LogLevel
  | .warning => .warning
  | .error => .error
  | .critical => .critical

/-- a call of the logger -/
def LogCall.event (c : LogCall) : ErrEvent := .log c.level.toLog c.text

/-! ## Actions that write -/

/-- actions of Model/Build: what is written, and the outcome -/
def RB (α : Type) := BState → List ErrEvent × (Res α × BState)

def RB.pure {α : Type} (x : α) : RB α := fun s => ([], .ok x, s)

def RB.bind {α β : Type} (m : RB α) (f : α → RB β) : RB β := fun s =>
  match (m s).2 with
  | (.ok x, s') => ((m s).1 ++ (f x s').1, (f x s').2)
  | (.error e, s') => ((m s).1, .error e, s')

instance : Monad RB where
  pure := RB.pure
  bind := RB.bind

/-- an action that writes nothing -/
def RB.quiet {α : Type} (m : BM α) : RB α := fun s => ([], m s)

def RB.tell (evs : List ErrEvent) : RB Unit := fun s => (evs, .ok (), s)

/-- actions of Model/Main -/
def RM (α : Type) := MState → List ErrEvent × (Res α × MState)

def RM.pure {α : Type} (x : α) : RM α := fun s => ([], .ok x, s)

def RM.bind {α β : Type} (m : RM α) (f : α → RM β) : RM β := fun s =>
  match (m s).2 with
  | (.ok x, s') => ((m s).1 ++ (f x s').1, (f x s').2)
  | (.error e, s') => ((m s).1, .error e, s')

instance : Monad RM where
  pure := RM.pure
  bind := RM.bind

def RM.quiet {α : Type} (m : MM α) : RM α := fun s => ([], m s)

def RM.tell (evs : List ErrEvent) : RM Unit := fun s => (evs, .ok (), s)

def RM.ofB {α : Type} (m : RB α) : RM α := fun s =>
  match m s.b with
  | (evs, r, b) => (evs, r, { s with b := b })

/-! ## Commands -/

/-- __main__.py:19-21 SIGINT at this point -/
def tickR (w : World) (p : Point) : RB Unit :=
  if w.interrupt = some p then do
    RB.tell [.sigint]
    RB.quiet (BM.raise (.exit 1))
  else RB.pure ()

/-- the words a command is run with -/
def CmdArg.words : CmdArg → List Str
  | .shell s => splitWs s
  | .list ws => ws.map CmdWord.word
  | .tuple ws => ws.map CmdWord.word

/-- utils.py:177-195 what becomes of a command, and `cwd.exists()` -/
def outcomeOf (w : World) (t : Telling) (hist : List Run) (r : Run) : Outcome × Bool :=
  match w.status hist r with
  | some st => (.ended st (w.output hist r) (t.stderr hist r), true)
  | none =>
    match r.cwd with
    | none => (.notFound, true)
    | some _ =>
      match t.noStart hist r with
      | .noCommand => (.notFound, true)
      | .noDirectory => (.notFound, false)
      | .notADirectory => (.notDir, true)

/-- as `exec` -/
def execR (w : World) (t : Telling) (argv : List Str) (cwd : Option Path) (input : Option Str) : RB (Outcome × Bool) := do
  let s ← RB.quiet BM.get
  let r : Run := ⟨argv, cwd, input, false, s.makefile⟩
  RB.quiet (BM.modify fun s => { s with hist := s.hist ++ [r] })
  tickR w (.run s.hist.length)
  RB.pure (outcomeOf w t s.hist r)

/-- records of level CRITICAL -/
def criticals (ms : List Str) : List ErrEvent := ms.map fun m => .log .critical (some m)

/-- utils.py:215-236 `run_command`; statuses of `World` are not negative -/
def runCommandR (w : World) (t : Telling) (cmd : CmdArg) (cwd : Option Path) (input : Option Str) : RB Nat := do
  let o ← execR w t cmd.words cwd input
  RB.tell (criticals (runTold cmd cwd o.2 o.1).1)
  RB.quiet (BM.lift ((runTold cmd cwd o.2 o.1).2.map Int.toNat))

/-- utils.py:238-277 `ensure_command` -/
def ensureCommandR (w : World) (t : Telling) (cmd : CmdArg) (cwd : Option Path) (input : Option Str) (console : Bool) : RB Str := do
  let o ← execR w t cmd.words cwd input
  RB.tell (criticals (ensureTold t.printable cmd cwd o.2 console o.1).1)
  RB.quiet (BM.lift (ensureTold t.printable cmd cwd o.2 console o.1).2)

/-! ## Building -/

/-- kernel.py:613-625 -/
def makeCmd (w : World) (b : Builder) (target : Str) : CmdArg := .list ((makeArgv w b target).map .str)

/-- kernel.py:613-630 `make` with `ensure=True` -/
def makeR (w : World) (t : Telling) (high : Bool) (b : Builder) (target : Str) (input : Option Str) : RB Unit := do
  let _ ← ensureCommandR w t (makeCmd w b target) (some b.kdir) input high
  RB.pure ()

/-- kernel.py:613-630 `make` with `ensure=False` -/
def tryMakeR (w : World) (t : Telling) (b : Builder) (target : Str) : RB Nat :=
  runCommandR w t (makeCmd w b target) (some b.kdir) none

/-- kernel.py:116 -/
def askVersionR (w : World) (t : Telling) (kdir : Path) : RB Ver := do
  let out ← ensureCommandR w t (.shell cs!"make kernelversion") (some kdir) none false
  match versionFromStr out with
  | none => RB.quiet (BM.raise (.named "KernelVersionError"))
  | some v => do
    RB.quiet (BM.modify fun s => { s with version := some v })
    RB.pure v

/-- kernel.py:119-133 the `version` property, without a vmlinux -/
def getVersionR (w : World) (t : Telling) (b : Builder) : RB Ver := do
  let s ← RB.quiet BM.get
  match s.version with
  | some v => RB.pure v
  | none => askVersionR w t b.kdir

/-- kernel.py:632-640 `sync_config` -/
def syncConfigR (w : World) (t : Telling) (high : Bool) (b : Builder) : RB Unit := do
  let v ← getVersionR w t b
  if verGe v [3, 7] then makeR w t high b cs!"olddefconfig" none
  else makeR w t high b cs!"oldconfig" (some (List.replicate 1000 '\n'))

/-- kernel.py:642-644 `clean` -/
def cleanR (w : World) (t : Telling) (high : Bool) (b : Builder) : RB Unit := do
  RB.quiet (BM.modify fun s => { s with version := none })
  makeR w t high b cs!"distclean" none

/-- kconfig.py:34 -/
def configCmd (b : Builder) (args : List Str) : CmdArg :=
  .list ([.str cs!"./scripts/config", .str cs!"--file", .path b.configFile.str] ++ args.map .str)

/-- the steps of kconfig.py -/
def performKR (w : World) (t : Telling) (b : Builder) : List KRec → RB Unit
  | [] => RB.pure ()
  | .script args :: es => do
    let _ ← ensureCommandR w t (configCmd b args) (some b.kdir) none false
    performKR w t b es
  | .log c :: es => do
    RB.tell [c.event]
    performKR w t b es

/-- steps, then their result -/
def performAllR (w : World) (t : Telling) (b : Builder) (p : List KRec × Res Unit) : RB Unit := do
  performKR w t b p.1
  RB.quiet (BM.lift p.2)

/-- kconfig.py:52-69 -/
def applyOptionsR (w : World) (t : Telling) (b : Builder) (options : List Str) : RB Unit := performAllR w t b (editConfigL options)

/-- kconfig.py:73-113 as `checkEvents` -/
def checkRecs (w : World) (b : Builder) (options : Dict Str (List Str)) (s : BState) : Option (List KRec × Res Unit) :=
  (w.readLines s.hist (b.configFile.absolute w.cwd)).map fun lines =>
    editConfigCheckDepsL lines (fun before n =>
      w.output (s.hist ++ before.map (configRun b s)) (configRun b s [cs!"-s", n])) options

/-- kconfig.py:73-113 -/
def applyOptionsCheckR (w : World) (t : Telling) (b : Builder) (options : Dict Str (List Str)) : RB Unit := do
  if options.isEmpty then RB.pure ()
  else do
    let s ← RB.quiet BM.get
    match checkRecs w b options s with
    | none => RB.quiet (BM.raise .fileNotFound)
    | some p => performAllR w t b p

/-- kernel.py:653-654 -/
def makeAllR (w : World) (t : Telling) (high : Bool) (b : Builder) : List Str → RB Unit
  | [] => RB.pure ()
  | x :: xs => do
    makeR w t high b x none
    makeAllR w t high b xs

/-- kernel.py:646-675 `configure` -/
def configureR (w : World) (t : Telling) (high : Bool) (b : Builder) : RB Unit := do
  RB.quiet (BM.modify fun s => { s with version := none })
  makeAllR w t high b b.arch.configTargets
  let v ← getVersionR w t b
  applyOptionsR w t b ((VList.init kconfigDebuggingTable).getItem v).1
  syncConfigR w t high b
  let v ← getVersionR w t b
  applyOptionsR w t b ((VList.init kconfigCompatibilityTable).getItem v).1
  syncConfigR w t high b
  let v ← getVersionR w t b
  applyOptionsCheckR w t b ((VDict.init kconfigMoreSyscallsTable).getItem v).1
  syncConfigR w t high b
  let v ← getVersionR w t b
  applyOptionsCheckR w t b (archKconfig b.store b.arch v)
  syncConfigR w t high b

/-- kernel.py:587-602 `__try_set_optimization_level` -/
def trySetOptLevelR (w : World) (lvl : Nat) : RB Bool := do
  let s ← RB.quiet BM.get
  let data := readText s.makefile
  RB.quiet (BM.modify fun s => { s with backup := some data })
  match findFlags true data with
  | none => RB.pure false
  | some (pre, post) => do
    RB.quiet (BM.modify fun s => { s with makefile := pre ++ natRepr lvl ++ post })
    tickR w (.patched lvl)
    RB.pure true

/-- kernel.py:604-611 `__restore_makefile` -/
def restoreMakefileR (w : World) (lvl : Nat) : RB Unit := do
  let s ← RB.quiet BM.get
  match s.backup with
  | some (c :: cs) => do
    RB.quiet (BM.modify fun s => { s with makefile := [] })
    tickR w (.restoring lvl)
    RB.quiet (BM.modify fun s => { s with makefile := c :: cs })
  | _ => RB.tell [.log .error (some cs!"Restoring Makefile without backing it up first???")]
  RB.quiet (BM.modify fun s => { s with handler := false })

/-- kernel.py:677-710 `build` -/
def buildR (w : World) (t : Telling) (high : Bool) (b : Builder) (tryDisableOpt : Bool) : RB Unit := do
  RB.quiet (BM.modify fun s => { s with version := none })
  if tryDisableOpt then do
    let patched ← trySetOptLevelR w 0
    if patched then do
      RB.quiet (BM.modify fun s => { s with handler := true })
      let res ← tryMakeR w t b cs!"vmlinux"
      restoreMakefileR w 0
      if res = 0 then RB.pure ()
      else do
        RB.tell [.log .error (some cs!"Failed to build with -O0, trying -O1")]
        let _ ← trySetOptLevelR w 1
        let res ← tryMakeR w t b cs!"vmlinux"
        restoreMakefileR w 1
        if res = 0 then RB.pure ()
        else do
          RB.tell [.log .error (some cs!"Failed to build with -O1, doing a normal build")]
          makeR w t high b cs!"vmlinux" none
    else do
      RB.tell [.log .warning (some cs!"Unable to patch Makefile to disable optimizations, doing a normal build instead")]
      makeR w t high b cs!"vmlinux" none
  else makeR w t high b cs!"vmlinux" none

/-! ## Instantiation -/

/-- utils.py:134-139 `eprint` -/
def eprintR (v : Verbosity) (msg : Str) : RM Unit := fun s => ([.say msg], eprint v msg s)

/-- several `eprint` -/
def eprintsR (v : Verbosity) : List Str → RM Unit
  | [] => RM.pure ()
  | l :: ls => do
    eprintR v l
    eprintsR v ls

/-- utils.py:285-289 `gcc_version` -/
def gccVersionR (w : MWorld) (t : Telling) (cmd : Str) : RM Str := do
  let out ← RM.ofB (ensureCommandR w.toWorld t (.tuple [.str cmd, .str cs!"--version"]) none none false)
  match splitLines out with
  | [] => RM.quiet (MM.raise .index)
  | l :: _ => RM.pure (strip l)

/-- utils.py:291-295 `git_checkout` -/
def gitCheckoutR (w : MWorld) (t : Telling) (kdir : Option Path) (ref : Str) : RM Unit := do
  let _ ← RM.ofB (ensureCommandR w.toWorld t (.tuple [.str cs!"git", .str cs!"checkout", .str ref]) kdir none false)
  RM.pure ()

/-- kernel.py:44-83 `Kernel.__init__` without a vmlinux -/
def newBuilderR (w : MWorld) (t : Telling) (archName : Option Str) (kdir outdir : Option Path) (cross : Str) : RM Builder :=
  match kdir, archName with
  | none, _ => RM.quiet (MM.raise .value)
  | some _, none => RM.quiet (MM.raise .value)
  | some k, some n => do
    let v ← RM.ofB (askVersionR w.toWorld t k)
    let s ← RM.quiet MM.get
    let p ← RM.quiet (MM.lift (archFromNameSt s.store n v))
    RM.quiet (MM.modify fun s => { s with store := p.2 })
    RM.pure ⟨k, outdir, some cross, p.1, p.2⟩

/-- one byte inside `repr` of `bytes`, for the quote `q` -/
def byteRepr (q : Char) (b : UInt8) : Str :=
  let c := Char.ofNat b.toNat
  if c = q ∨ c = '\\' then ['\\', c]
  else if c = '\t' then cs!"\\t"
  else if c = '\n' then cs!"\\n"
  else if c = '\r' then cs!"\\r"
  else if b.toNat < 32 ∨ b.toNat ≥ 127 then '\\' :: 'x' :: hexFixed 2 b.toNat
  else [c]

/-- `repr` of `bytes` -/
def bytesRepr (bs : Bytes) : Str :=
  let q := if bs.contains 39 && !bs.contains 34 then '"' else '\''
  'b' :: q :: bs.flatMap (byteRepr q) ++ [q]

/-- elf.py:59-78 what is logged about the first bytes -/
def identEvents (data : Bytes) : List ErrEvent :=
  if (readAt data 0 6).length = 6 then
    (if data.take 4 ≠ [0x7f, 0x45, 0x4c, 0x46] then [.log .warning (some (cs!"Bad ELF magic: " ++ bytesRepr (data.take 4)))] else []) ++
    (headerCalls data).map LogCall.event
  else []

/-- elf.py:52-148 `ELF(vmlinux)`, as `loadElf` -/
def loadElfR (w : MWorld) (t : Telling) (vmlinux : Path) : RM Elf := do
  let s ← RM.quiet MM.get
  match w.content s.b.hist vmlinux with
  | none => RM.quiet (MM.raise .fileNotFound)
  | some data => do
    RM.tell (identEvents data)
    let h ← RM.quiet (MM.lift (parseElfHeader data))
    let symOut ← RM.ofB (ensureCommandR w.toWorld t (.list [.str cs!"readelf", .str cs!"-Ws", .path vmlinux.str]) none none false)
    if (extractSymbols h.machine (splitLines symOut)).1.isEmpty then RM.quiet (MM.raise (.named "KernelWithoutSymbolsError"))
    else do
      let secOut ← RM.ofB (ensureCommandR w.toWorld t (.list [.str cs!"readelf", .str cs!"-WS", .path vmlinux.str]) none none false)
      RM.quiet (MM.lift (Elf.load data secOut (splitLines symOut)))

/-- kernel.py:44-83 `Kernel.__init__` with a vmlinux -/
def newAnalysisR (w : MWorld) (t : Telling) (archName : Option Str) (vmlinux : Path) (kdir : Option Path) : RM Analysis := do
  let e ← loadElfR w t vmlinux
  let a ← RM.quiet (MM.lift (kernelInit archName (some e) kdir.isSome (.error .hang)))
  let v ← RM.quiet (MM.lift (kernelVersion (some e) kdir.isSome (.error .hang)))
  RM.pure ⟨e, a, v⟩

/-- __main__.py:132-156 `instantiate_kernel` -/
def catchInitR {α : Type} (w : MWorld) (v : Verbosity) (archName : Option Str) (detected : Option (Kind × Bool × List Str))
    (m : RM α) : RM α := fun s =>
  match (m s).2 with
  | (.ok x, s') => ((m s).1, .ok x, s')
  | (.error e, s') =>
    match initMessages w.prog archName detected e with
    | none => ((m s).1, .error e, s')
    | some ls =>
      let r := (eprintsR v ls >>= fun _ => RM.quiet (MM.raise (.exit 1))) s'
      ((m s).1 ++ r.1, r.2)

/-! ## main -/

/-- __main__.py:242 -/
def tookR (t : Telling) : RM Unit := fun s => ([.say (cs!"Build took " ++ t.took s.b.hist)], .ok (), s)

/-- __main__.py:206-255 `--clean`, `--config`, `--build`; `main` leaves out line 242 -/
def mainBuildR (w : MWorld) (t : Telling) (v : Verbosity) (args : Args) (archName : Option Str) : RM Nat := do
  let cross := args.cross.getD []
  let kdir := pathOf args.kdir
  let outdir := pathOf args.out
  let s ← RM.quiet MM.get
  match outState w s.b.hist outdir with
  | .notADirectory => do
    eprintR v (cs!"Output directory \"" ++ args.out.getD [] ++ cs!"\" already exists and is not a directory")
    RM.pure 1
  | .mkdirFails reason => do
    eprintR v (cs!"Failed to create output directory \"" ++ args.out.getD [] ++ cs!"\": " ++ reason)
    RM.pure 1
  | .usable => do
    RM.quiet (MM.modify fun s => { s with dirs := s.dirs ++ outdir.toList })
    let gcc := cross ++ cs!"gcc"
    if !w.available s.b.hist gcc then do
      eprintR v (cs!"Command \"" ++ gcc ++ cs!"\" not found")
      eprintR v cs!"Make sure your cross-compilation toolchain is in $PATH"
      RM.pure 127
    else do
      if args.config || args.build then do
        let ver ← gccVersionR w t gcc
        eprintR v (cs!"Compiler: " ++ ver)
      else RM.pure ()
      let b ← catchInitR w v archName none (newBuilderR w t archName kdir outdir cross)
      if args.build || args.config then do
        eprintR v cs!"Cleaning kernel sources"
        RM.ofB (cleanR w.toWorld t v.high b)
        let ver ← RM.ofB (getVersionR w.toWorld t b)
        eprintR v (cs!"Detected kernel version: " ++ versionStr ver cs!"make")
        eprintR v cs!"Configuring kernel"
        RM.ofB (configureR w.toWorld t v.high b)
        if args.build then do
          eprintR v cs!"Building kernel (might take a while)"
          RM.ofB (buildR w.toWorld t v.high b args.disableOpt)
          tookR t
        else eprintR v cs!"Done"
      else do
        eprintR v cs!"Cleaning kernel sources"
        RM.ofB (cleanR w.toWorld t v.high b)
        eprintR v cs!"Done"
      RM.pure 0

/-- what the extraction depends on besides the image, after a history; see `kenvOf` -/
def surroundingsOf (w : MWorld) (hist : List Run) (vmlinux : Path) (kdir rdir : Option Path) : Surroundings :=
  ⟨w.niOrder, w.x86, { w.locEnv hist with haveAddr2line := w.available hist cs!"addr2line", elfPath := vmlinux }, kdir, rdir⟩

/-- `Kernel.syscalls`, with its messages. SystemExit comes from `adjust_line` (location.py:189, 203), right after a message, or from
addr2line or rg, about which `ensure_command` says something (utils.py:274). -/
def extractR (w : MWorld) (t : Telling) (k : Analysis) (vmlinux : Path) (kdir rdir : Option Path) : RM (List Syscall) := fun s =>
  let r := wholeL t.insn t.symbol (surroundingsOf w s.b.hist vmlinux kdir rdir) k.arch k.elf k.version
  (r.1.map LogCall.event ++
    (match r.2 with
     | .error (.exit _) =>
       if r.1.getLast? = some wrongSourceCall then [] else [.log .critical (some (t.helper s.b.hist))]
     | _ => []), r.2, s)

/-- __main__.py:278-281 the checkout of `--checkout auto` -/
def autoCheckoutR (w : MWorld) (t : Telling) (v : Verbosity) (args : Args) (k : Analysis) : RM Unit :=
  if args.checkout = some cs!"auto" then do
    let tag ← RM.quiet (MM.lift (versionTag k.version))
    eprintR v (cs!"Checking out to " ++ tag)
    gitCheckoutR w t (pathOf args.kdir) tag
  else RM.pure ()

/-- output.py:102-107 -/
def noJinjaLines : List Str :=
  [cs!"HTML output not supported, could not import needed dependencies.",
   cs!"Install the systrack[html] or systrack[full] package through pip."]

/-- output.py:102-136 `output_syscalls`; `main` leaves out lines 105-106 -/
def outputR (w : MWorld) (k : KernelInfo) (f : Format) : RM Str := do
  RM.tell (if f = .html ∧ w.jinja = false then noJinjaLines.map .say else [])
  RM.quiet (MM.lift (outputSyscalls w.jinja w.css w.js k f))

/-- __main__.py:283-321 extraction and output -/
def mainReportR (w : MWorld) (t : Telling) (v : Verbosity) (args : Args) (k : Analysis) (vmlinux : Path) : RM Nat := do
  let kdir := pathOf args.kdir
  let scs ← extractR w t k vmlinux kdir (pathOf args.remap)
  if scs.isEmpty then RM.pure 1
  else do
    let scs ← RM.quiet (MM.lift (mapRes (relativize kdir args.absolutePaths) scs))
    eprintsR v (resultMessages kdir scs)
    let text ← outputR w ⟨k.version, cs!"vmlinux", k.arch.adjustAbi k.elf, scs⟩ args.format
    RM.quiet (MM.modify fun s => { s with out := some text })
    RM.pure 0

/-- __main__.py:257-281 the analysis -/
def mainAnalyzeR (w : MWorld) (t : Telling) (v : Verbosity) (args : Args) (archName : Option Str) : RM Nat := do
  let kdir := pathOf args.kdir
  if args.checkout = some cs!"auto" ∧ pathOf args.vmlinux = none then do
    eprintR v cs!"Cannot perform auto-checkout without a vmlinux image!"
    RM.pure 1
  else
    match vmlinuxPath args with
    | none => RM.quiet (MM.raise .type)
    | some vmlinux => do
      let s ← RM.quiet MM.get
      if !w.isFile s.b.hist vmlinux then do
        eprintR v (cs!"Unable to find vmlinux at \"" ++ vmlinux.str ++ cs!"\".")
        eprintR v cs!"Build the kernel or provide a valid path."
        RM.pure 1
      else if !w.available s.b.hist cs!"readelf" then do
        eprintR v cs!"Command \"readelf\" unavailable, can't do much without it!"
        RM.pure 127
      else do
        let k ← catchInitR w v archName (detectedArch w vmlinux s) (newAnalysisR w t archName vmlinux kdir)
        eprintR v (cs!"Detected kernel version: " ++ versionStr k.version cs!"vmlinux")
        autoCheckoutR w t v args k
        mainReportR w t v args k vmlinux

/-- __main__.py:195-321 what follows the checks -/
def mainRunR (w : MWorld) (t : Telling) (v : Verbosity) (args : Args) (archName : Option Str) : RM Nat := do
  if given args.checkout && decide (args.checkout ≠ some cs!"auto") then do
    eprintR v (cs!"Checking out to " ++ args.checkout.getD [])
    gitCheckoutR w t (pathOf args.kdir) (args.checkout.getD [])
  else RM.pure ()
  if args.clean || args.config || args.build then mainBuildR w t v args archName else mainAnalyzeR w t v args archName

/-- __main__.py:158-321 `main`, without the end of the process -/
def mainBodyR (w : MWorld) (t : Telling) (archHelp : Str) (args : Args) : RM Nat :=
  let v := setupLogging args.quiet args.verbose
  let archName := args.arch.map lower
  if archName.any (fun a => !dmem a supportedArchs) then
    if archName = some cs!"help" ∨ archName = some cs!"?" then do
      eprintR v archHelp
      RM.pure 0
    else do
      eprintR v (cs!"Unsupported architecture/ABI combination: " ++ archName.getD [])
      eprintR v cs!"See --arch HELP for a list"
      RM.pure 1
  else if !given args.kdir && !given args.vmlinux then do
    eprintR v cs!"Need to specify a kernel source direcory and/or path to vmlinux"
    eprintR v cs!"See --help for more information"
    RM.pure 1
  else if !given args.kdir && (given args.checkout || args.config || args.build) then do
    eprintR v cs!"Need to specify a kernel source direcory (--kdir)"
    RM.pure 1
  else if !given archName && (args.config || args.build) then do
    eprintR v cs!"Need to specify an architecture/ABI combination (--arch)"
    eprintR v cs!"See --arch HELP for a list"
    RM.pure 1
  else mainRunR w t v args archName

/-- `main` and the end of the process: an exception other than SystemExit is shown with its traceback -/
def mainR (w : MWorld) (t : Telling) (archHelp : Str) (args : Args) : RM Nat := fun s =>
  let r := mainBodyR w t archHelp args s
  (r.1 ++ (match r.2.1 with
    | .ok _ => []
    | .error (.exit _) => []
    | .error e => [.uncaught (t.traceback e)]), r.2)

/-- standard error of the process, in order. Simplification: without the records of levels INFO and DEBUG, which appear with `-v`. -/
def stderrOf (w : MWorld) (t : Telling) (archHelp lost : Str) (args : Args) (colors : Bool) (s : MState) : Str :=
  stderrText args.quiet args.verbose colors lost (mainR w t archHelp args s).1

end Verif
