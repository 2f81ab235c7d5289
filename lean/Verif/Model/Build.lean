import Verif.Model.Kernel
import Verif.Model.Location
/-! # Model of configuring and building, /repo/src/systrack/kernel.py:587-710 and utils.py:215-277

Commands are recorded in a history; what they answer is given by an oracle that may depend on everything run
before. Files other than the Makefile are only known through such answers. The process may be interrupted
(SIGINT, whose handler calls `sys.exit(1)`, __main__.py:19-21) at one point. -/
set_option autoImplicit false

namespace Verif

/-- A command that was run: arguments, working directory, data given for standard input, what standard
input of the child is connected to (a pipe, or else inherited), and the content of KDIR/Makefile at that time. -/
structure Run where
  argv : List Str
  cwd : Option Path
  input : Option Str
  stdinPipe : Bool
  makefile : Str
  deriving DecidableEq

/-- Points where the process may be interrupted: while command number `k` runs, right after the Makefile was
rewritten for a level, and after it was opened for restoring (which empties it) following that level. -/
inductive Point where
  | run (k : Nat)
  | patched (lvl : Nat)
  | restoring (lvl : Nat)
  deriving DecidableEq

/-- The outside. -/
structure World where
  /-- exit status of a command after a history; `none` when it, or the directory, does not exist -/
  status : List Run → Run → Option Nat
  /-- standard output -/
  output : List Run → Run → Str
  /-- lines of the file at a path (after a history), `none` when it cannot be opened -/
  readLines : List Run → Path → Option (List Str)
  /-- working directory of the process -/
  cwd : Path
  /-- `len(sched_getaffinity(0))` -/
  ncpu : Nat
  interrupt : Option Point

structure BState where
  hist : List Run := []
  /-- `self.__version` -/
  version : Option Ver := none
  /-- content of KDIR/Makefile -/
  makefile : Str := []
  /-- `self.__backup_makefile` -/
  backup : Option Str := none
  /-- whether `__restore_makefile` is registered with `atexit` -/
  handler : Bool := false

/-- actions with a result or an exception, on a state -/
def BM (α : Type) := BState → Res α × BState

def BM.pure {α : Type} (x : α) : BM α := fun s => (.ok x, s)

def BM.bind {α β : Type} (m : BM α) (f : α → BM β) : BM β := fun s =>
  match m s with
  | (.ok x, s') => f x s'
  | (.error e, s') => (.error e, s')

instance : Monad BM where
  pure := BM.pure
  bind := BM.bind

def BM.raise {α : Type} (e : Exc) : BM α := fun s => (.error e, s)

def BM.lift {α : Type} (r : Res α) : BM α := fun s => (r, s)

def BM.modify (f : BState → BState) : BM Unit := fun s => (.ok (), f s)

def BM.get : BM BState := fun s => (.ok s, s)

/-- SIGINT at this point: `sys.exit(1)` -/
def tick (w : World) (p : Point) : BM Unit := if w.interrupt = some p then .raise (.exit 1) else .pure ()

/-- `do_popen` and `communicate`, utils.py:177-195, 231-236, 261-277: the answer, `none` when there is no such command or
directory. `Popen` is never called with `stdin=`, so the child inherits standard input. Simplification: commands do not
change KDIR/Makefile. -/
def exec (w : World) (argv : List Str) (cwd : Option Path) (input : Option Str) : BM (Option Nat × Str) := do
  let s ← BM.get
  let r : Run := ⟨argv, cwd, input, false, s.makefile⟩
  BM.modify fun s => { s with hist := s.hist ++ [r] }
  tick w (.run s.hist.length)
  BM.pure (w.status s.hist r, w.output s.hist r)

/-- utils.py:182-193 a command that cannot be started: without a `cwd` the handler itself raises, on `cwd.exists()` -/
def notStarted {α : Type} (cwd : Option Path) (m : BM α) : BM α :=
  match cwd with
  | none => BM.raise .attr
  | some _ => m

/-- utils.py:215-236 `run_command` -/
def runCommand (w : World) (argv : List Str) (cwd : Option Path) (input : Option Str) : BM Nat := do
  let r ← exec w argv cwd input
  match r.1 with
  | none => notStarted cwd (BM.pure 127)
  | some st => BM.pure st

/-- utils.py:238-277 `ensure_command` -/
def ensureCommand (w : World) (argv : List Str) (cwd : Option Path) (input : Option Str) : BM Str := do
  let r ← exec w argv cwd input
  match r.1 with
  | none => notStarted cwd (BM.raise (.exit 127))
  | some st => if st ≠ 0 then BM.raise (.exit 1) else BM.pure r.2

/-- The `Kernel` object of a build (there is no vmlinux): kernel.py:54-59 -/
structure Builder where
  kdir : Path
  outdir : Option Path
  toolchainPrefix : Option Str
  arch : Arch
  /-- the class-level tables at the time of configuring -/
  store : KStore

/-- `path.absolute()` -/
def Path.absolute (p cwd : Path) : Path := cwd.join p

/-- kernel.py:613-625 the command line of `make` -/
def makeArgv (w : World) (b : Builder) (target : Str) : List Str :=
  [cs!"make", cs!"-j" ++ natRepr (max (w.ncpu - 1) 1), cs!"ARCH=" ++ b.arch.kind.name,
    cs!"KCFLAGS='-fdebug-prefix-map=" ++ (b.kdir.absolute w.cwd).str ++ cs!"=.'"] ++
  (match b.toolchainPrefix with | some (c :: cs) => [cs!"CROSS_COMPILE=" ++ (c :: cs)] | _ => []) ++
  (match b.outdir with | some o => [cs!"O=" ++ o.str] | none => []) ++ [target]

/-- kernel.py:613-630 `make` with `ensure=True` -/
def make (w : World) (b : Builder) (target : Str) (input : Option Str) : BM Unit := do
  let _ ← ensureCommand w (makeArgv w b target) (some b.kdir) input
  BM.pure ()

/-- kernel.py:613-630 `make` with `ensure=False` -/
def tryMake (w : World) (b : Builder) (target : Str) : BM Nat := runCommand w (makeArgv w b target) (some b.kdir) none

/-- kernel.py:119-133 the `version` property, without a vmlinux -/
def getVersion (w : World) (b : Builder) : BM Ver := do
  let s ← BM.get
  match s.version with
  | some v => BM.pure v
  | none => do
    let out ← ensureCommand w [cs!"make", cs!"kernelversion"] (some b.kdir) none
    match versionFromStr out with
    | none => BM.raise (.named "KernelVersionError")
    | some v => do
      BM.modify fun s => { s with version := some v }
      BM.pure v

/-- kernel.py:632-640 `sync_config` -/
def syncConfig (w : World) (b : Builder) : BM Unit := do
  let v ← getVersion w b
  if verGe v [3, 7] then make w b cs!"olddefconfig" none
  else make w b cs!"oldconfig" (some (List.replicate 1000 '\n'))

/-- kernel.py:642-644 `clean` -/
def clean (w : World) (b : Builder) : BM Unit := do
  BM.modify fun s => { s with version := none }
  make w b cs!"distclean" none

/-- kernel.py:647 the configuration file -/
def Builder.configFile (b : Builder) : Path := ((b.outdir.getD b.kdir)).join ⟨false, [cs!".config"]⟩

/-- kconfig.py:33-34 `run_config_script`, for the events of Model/Kconfig; log messages do nothing -/
def performK (w : World) (b : Builder) : List KEvent → BM Unit
  | [] => BM.pure ()
  | .script args :: es => do
    let _ ← ensureCommand w ([cs!"./scripts/config", cs!"--file", b.configFile.str] ++ args) (some b.kdir) none
    performK w b es
  | _ :: es => performK w b es

/-- events, then their result -/
def performAll (w : World) (b : Builder) (p : List KEvent × Res Unit) : BM Unit := do
  performK w b p.1
  BM.lift p.2

/-- kconfig.py:52-69 -/
def applyOptions (w : World) (b : Builder) (options : List Str) : BM Unit := performAll w b (editConfig options)

/-- kconfig.py:33-34 an invocation of `scripts/config` -/
def configRun (b : Builder) (s : BState) (args : List Str) : Run :=
  ⟨[cs!"./scripts/config", cs!"--file", b.configFile.str] ++ args, some b.kdir, none, false, s.makefile⟩

/-- kconfig.py:73-113 what `edit_config_check_deps` does and logs in a state, none if the file cannot be opened; it is opened by
the process itself, relative to its own working directory. -/
def checkEvents (w : World) (b : Builder) (options : Dict Str (List Str)) (s : BState) : Option (List KEvent × Res Unit) :=
  (w.readLines s.hist (b.configFile.absolute w.cwd)).map fun lines =>
    editConfigCheckDeps lines (fun before n =>
      w.output (s.hist ++ before.map (configRun b s)) (configRun b s [cs!"-s", n])) options

/-- kconfig.py:73-113 -/
def applyOptionsCheck (w : World) (b : Builder) (options : Dict Str (List Str)) : BM Unit := do
  if options.isEmpty then BM.pure ()
  else do
    let s ← BM.get
    match checkEvents w b options s with
    | none => BM.raise .fileNotFound
    | some p => performAll w b p

/-- kernel.py:646-675 `configure` -/
def configure (w : World) (b : Builder) : BM Unit := do
  BM.modify fun s => { s with version := none }
  b.arch.configTargets.forM fun t => make w b t none
  let v ← getVersion w b
  applyOptions w b ((VList.init kconfigDebuggingTable).getItem v).1
  syncConfig w b
  let v ← getVersion w b
  applyOptions w b ((VList.init kconfigCompatibilityTable).getItem v).1
  syncConfig w b
  let v ← getVersion w b
  applyOptionsCheck w b ((VDict.init kconfigMoreSyscallsTable).getItem v).1
  syncConfig w b
  let v ← getVersion w b
  applyOptionsCheck w b (archKconfig b.store b.arch v)
  syncConfig w b

/-! ## The Makefile -/

/-- text mode: `\r\n` and `\r` are read as `\n` -/
def readText : Str → Str
  | [] => []
  | '\r' :: '\n' :: cs => '\n' :: readText cs
  | c :: cs => (if c = '\r' then '\n' else c) :: readText cs

/-- kernel.py:594 the expression `KBUILD_CFLAGS\s*\+=\s*-O(2)\n` at a position: the text up to the group, and after it -/
def flagsAt (s : Str) : Option (Str × Str) :=
  if startsWith s cs!"KBUILD_CFLAGS" then
    let r := s.drop 13
    let ws := r.takeWhile isSpace
    let r := r.dropWhile isSpace
    if startsWith r cs!"+=" then
      let r := r.drop 2
      let ws' := r.takeWhile isSpace
      let r := r.dropWhile isSpace
      if startsWith r cs!"-O2\n" then some (cs!"KBUILD_CFLAGS" ++ ws ++ cs!"+=" ++ ws' ++ cs!"-O", r.drop 3) else none
    else none
  else none

/-- kernel.py:594 `re.search` with `^` and MULTILINE; the flag says whether a line starts here -/
def findFlags : Bool → Str → Option (Str × Str)
  | bol, [] => if bol then flagsAt [] else none
  | bol, c :: cs =>
    match (if bol then flagsAt (c :: cs) else none) with
    | some x => some x
    | none => (findFlags (c == '\n') cs).map fun p => (c :: p.1, p.2)

/-- kernel.py:587-602 `__try_set_optimization_level`. The write is one step: the file is closed (and flushed) before anything else,
and the new text is as long as the old one. A missing Makefile is not modelled. -/
def trySetOptLevel (w : World) (lvl : Nat) : BM Bool := do
  let s ← BM.get
  let data := readText s.makefile
  BM.modify fun s => { s with backup := some data }
  match findFlags true data with
  | none => BM.pure false
  | some (pre, post) => do
    BM.modify fun s => { s with makefile := pre ++ natRepr lvl ++ post }
    tick w (.patched lvl)
    BM.pure true

/-- kernel.py:604-611 `__restore_makefile`; an empty backup counts as none -/
def restoreMakefile (w : World) (lvl : Nat) : BM Unit := do
  let s ← BM.get
  match s.backup with
  | some (c :: cs) => do
    BM.modify fun s => { s with makefile := [] }
    tick w (.restoring lvl)
    BM.modify fun s => { s with makefile := c :: cs }
  | _ => BM.pure ()
  BM.modify fun s => { s with handler := false }

/-- kernel.py:677-710 `build` -/
def build (w : World) (b : Builder) (tryDisableOpt : Bool) : BM Unit := do
  BM.modify fun s => { s with version := none }
  if tryDisableOpt then do
    let patched ← trySetOptLevel w 0
    if patched then do
      BM.modify fun s => { s with handler := true }
      let res ← tryMake w b cs!"vmlinux"
      restoreMakefile w 0
      if res = 0 then BM.pure ()
      else do
        let _ ← trySetOptLevel w 1
        let res ← tryMake w b cs!"vmlinux"
        restoreMakefile w 1
        if res = 0 then BM.pure ()
        else make w b cs!"vmlinux" none
    else make w b cs!"vmlinux" none
  else make w b cs!"vmlinux" none

/-- exit handlers, run when the process ends for whatever reason; no interruption there -/
def atExit (s : BState) : BState :=
  if s.handler then
    match s.backup with
    | some (c :: cs) => { s with makefile := c :: cs, handler := false }
    | _ => { s with handler := false }
  else s

end Verif
