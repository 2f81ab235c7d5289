import Verif.Spec.Main
import Verif.Spec.Kernel
import Verif.Spec.Popen
import Verif.Spec.Build
import Verif.Model.Stderr
/-! # How standard error ends -/
set_option autoImplicit false

namespace Verif.Spec

/-- lines of `eprint` with which a run gives up -/
inductive Apology : List Str → Prop
  | badArch (a : Str) : Apology [cs!"Unsupported architecture/ABI combination: " ++ a, cs!"See --arch HELP for a list"]
  | nothingGiven : Apology [cs!"Need to specify a kernel source direcory and/or path to vmlinux", cs!"See --help for more information"]
  | needKdir : Apology [cs!"Need to specify a kernel source direcory (--kdir)"]
  | needArch : Apology [cs!"Need to specify an architecture/ABI combination (--arch)", cs!"See --arch HELP for a list"]
  | outNotDir (o : Str) : Apology [cs!"Output directory \"" ++ o ++ cs!"\" already exists and is not a directory"]
  | outFails (o reason : Str) : Apology [cs!"Failed to create output directory \"" ++ o ++ cs!"\": " ++ reason]
  | noCompiler (c : Str) : Apology [cs!"Command \"" ++ c ++ cs!"\" not found", cs!"Make sure your cross-compilation toolchain is in $PATH"]
  | noVersion : Apology [cs!"Unable to determine kernel version!",
      cs!"Did you specify a valid kernel source directory (--kdir) or vmlinux path?"]
  | unknownArch (prog : Str) : Apology [cs!"Failed to detect kernel architecture/ABI", cs!"See '" ++ prog ++ cs!" --arch help' for more information"]
  | wrongArch (a prog : Str) : Apology [cs!"Architecture " ++ a ++ cs!" does not match provided vmlinux",
      cs!"See '" ++ prog ++ cs!" --arch help' for more information"]
  | noSymbols : Apology [cs!"The provided kernel image has no symbols, which are necessary for Systrack to work.",
      cs!"You can try unstripping the image with tools such as \"vmlinux-to-elf\"."]
  | manyAbis (a : Str) (abis : List Str) : Apology [cs!"Detected architecture: " ++ a, cs!"Detected ABIs: " ++ joinWith cs!", " abis,
      cs!"This kernel was built with support for multiple syscall ABIs.",
      cs!"Select one using --arch NAME (see --arch HELP for more info)."]
  | noImage : Apology [cs!"Cannot perform auto-checkout without a vmlinux image!"]
  | noVmlinux (p : Str) : Apology [cs!"Unable to find vmlinux at \"" ++ p ++ cs!"\".", cs!"Build the kernel or provide a valid path."]
  | noReadelf : Apology [cs!"Command \"readelf\" unavailable, can't do much without it!"]
  | noHtml : Apology [cs!"HTML output not supported, could not import needed dependencies.",
      cs!"Install the systrack[html] or systrack[full] package through pip."]

/-- output goes to the console: a `make` of a target, with `-vvv` -/
def onConsole (high : Bool) (cmd : CmdArg) : Bool :=
  match cmd with
  | .list (.str c :: _) => high && decide (c = cs!"make")
  | _ => false

/-- the message about a command that cannot be started after the commands `pre` -/
inductive NotStarted (w : World) (t : Telling) (pre : List Run) (r : Run) : Str → Prop
  | noCommand (c : Str) (rest : List Str) : r.argv = c :: rest → w.status pre r = none → t.noStart pre r = .noCommand →
      NotStarted w t pre r (cs!"Command not found: " ++ c)
  | noDirectory (d : Path) : r.cwd = some d → w.status pre r = none → t.noStart pre r = .noDirectory →
      NotStarted w t pre r (cs!"Directory does not exist: " ++ d.str)
  | notADirectory (d : Path) : r.cwd = some d → w.status pre r = none → t.noStart pre r = .notADirectory →
      NotStarted w t pre r (cs!"Path is not a directory: " ++ d.str)

/-- The message about the last command of a run, which failed: it ended with a status other than 0, or it could not be started. -/
inductive CommandFailed (w : World) (t : Telling) (high : Bool) (hist : List Run) : Str → Prop
  | status (pre : List Run) (r : Run) (cmd : CmdArg) (st : Nat) : hist = pre ++ [r] → cmd.words = r.argv → w.status pre r = some st → st ≠ 0 →
      CommandFailed w t high hist (cs!"Command returned " ++ natRepr st ++ cs!": " ++ cmd.shown t.printable ++
        (match errTold (onConsole high cmd) (t.stderr pre r) with
         | .nothing => []
         | .empty => cs!" (no stderr output)"
         | .text e => '\n' :: indentTab e))
  | notStarted (pre : List Run) (r : Run) (m : Str) : hist = pre ++ [r] → NotStarted w t pre r m → CommandFailed w t high hist m

/-- fatal messages about the image or the source -/
inductive TurnedDown : Str → Prop
  | cls (n : Nat) : TurnedDown (cs!"Invalid ELF e_ident[EI_CLASS] = " ++ natRepr n)
  | data (n : Nat) : TurnedDown (cs!"Invalid ELF e_ident[EI_DATA] = " ++ natRepr n)
  | narrow : TurnedDown cs!"Selected arch is 32-bit, but kernel is 64-bit"
  | wide : TurnedDown cs!"Selected arch is 64-bit, but kernel is 32-bit"
  | noVaddr : TurnedDown cs!"Unable to extract any syscall vaddr, giving up!"
  | noNi : TurnedDown cs!"No ni_syscall found!"
  | wrongSource : TurnedDown cs!"Do you have the correct source code version for this kernel?"

/-- What a run ends with that tells why it fails: the report of an interruption, the fatal message about the last command (or about
addr2line or rg), one about the image or the source, or lines of `eprint`. `hist` are the commands of the run. -/
inductive Closing (w : World) (t : Telling) (high : Bool) (hist : List Run) : List ErrEvent → Prop
  | interrupted (p : Point) : w.interrupt = some p → Closing w t high hist [.sigint]
  | command (m : Str) : CommandFailed w t high hist m → Closing w t high hist [.log .critical (some m)]
  | helper : Closing w t high hist [.log .critical (some (t.helper hist))]
  | rejected (m : Str) : TurnedDown m → Closing w t high hist [.log .critical (some m)]
  | lines (ls : List Str) : Apology ls → Closing w t high hist (ls.map .say)

/-- the end tells why -/
def TellsWhy (w : World) (t : Telling) (high : Bool) (hist : List Run) (evs : List ErrEvent) : Prop :=
  ∃ before last, Closing w t high hist last ∧ evs = before ++ last

/-- The image was loaded, the syscall table found (or the code that stands for it analysed) with entries in it, and there is a
ni_syscall, but no syscall is left in the end: none of the entries is implemented. `hist` are the commands of the run. -/
def NothingLeft (w : MWorld) (args : Args) (hist : List Run) : Prop :=
  ∃ (vmlinux : Path) (s : MState) (k : Analysis) (entries : List (Nat × Nat)),
    vmlinuxPath args = some vmlinux ∧ (newAnalysis w (args.arch.map lower) vmlinux (pathOf args.kdir) s).1 = .ok k ∧
    k.arch.bits32 = k.elf.bits32 ∧
    tableEntries (k.arch.adjustAbi k.elf) k.elf (kenvOf w hist k.arch k.elf vmlinux (pathOf args.kdir) (pathOf args.remap)) = .ok entries ∧
    entries ≠ [] ∧ (∃ sym, IsNi k.elf sym) ∧
    extractSyscalls k.arch k.elf k.version (kenvOf w hist k.arch k.elf vmlinux (pathOf args.kdir) (pathOf args.remap)) = .ok []

/-- the message about the first four bytes of a file that are not those of ELF files -/
def magicSaid (data : Bytes) : List ErrEvent :=
  if data.take 4 = [0x7f, 0x45, 0x4c, 0x46] then [] else [.log .warning (some (cs!"Bad ELF magic: " ++ bytesRepr (data.take 4)))]

/-- the line about an explicit `--checkout REF` -/
def checkoutLine (args : Args) : List Str :=
  match args.checkout with
  | some ref => if ref = [] ∨ ref = cs!"auto" then [] else [cs!"Checking out to " ++ ref]
  | none => []

/-- a command that is tried fails: its status says so, or a message says that it cannot be started -/
inductive TriedInVain (w : World) (t : Telling) (pre : List Run) (r : Run) : List ErrEvent → Prop
  | status (st : Nat) : w.status pre r = some st → st ≠ 0 → TriedInVain w t pre r []
  | notStarted (m : Str) : NotStarted w t pre r m → TriedInVain w t pre r [.log .critical (some m)]

/-- the Makefile of this run is one whose optimization level was replaced -/
def Relevelled (r : Run) (level : Char) : Prop :=
  ∃ text a mid post, FirstFlag text a mid post ∧ r.makefile = a ++ mid ++ level :: post

/-- What is told while building, by the last commands of the run: nothing about a build with the optimization of the Makefile, if no
other is asked for; a warning if the Makefile has no flag to replace; otherwise one error for each level that failed. -/
inductive BuildSaid (w : World) (t : Telling) (disableOpt : Bool) (hist : List Run) : List ErrEvent → Prop
  | normal : disableOpt = false → BuildSaid w t disableOpt hist []
  | unpatched (pre : List Run) (r : Run) : disableOpt = true → hist = pre ++ [r] → NoFlag (readText r.makefile) →
      BuildSaid w t disableOpt hist
        [.log .warning (some cs!"Unable to patch Makefile to disable optimizations, doing a normal build instead")]
  | level0 (pre : List Run) (r0 : Run) : disableOpt = true → hist = pre ++ [r0] → Relevelled r0 '0' → w.status pre r0 = some 0 →
      BuildSaid w t disableOpt hist []
  | level1 (pre : List Run) (r0 r1 : Run) (e0 : List ErrEvent) : disableOpt = true → hist = pre ++ [r0, r1] → Relevelled r0 '0' →
      TriedInVain w t pre r0 e0 → w.status (pre ++ [r0]) r1 = some 0 →
      BuildSaid w t disableOpt hist (e0 ++ [.log .error (some cs!"Failed to build with -O0, trying -O1")])
  | stock (pre : List Run) (r0 r1 r2 : Run) (e0 e1 : List ErrEvent) : disableOpt = true → hist = pre ++ [r0, r1, r2] → Relevelled r0 '0' →
      TriedInVain w t pre r0 e0 → TriedInVain w t (pre ++ [r0]) r1 e1 → w.status (pre ++ [r0, r1]) r2 = some 0 →
      BuildSaid w t disableOpt hist (e0 ++ [.log .error (some cs!"Failed to build with -O0, trying -O1")] ++
        (e1 ++ [.log .error (some cs!"Failed to build with -O1, doing a normal build")]))

/-- `make kernelversion`, one of these commands, printed version `v` -/
def PrintedBy (w : World) (hist : List Run) (v : Ver) : Prop :=
  ∃ pre r, pre ++ [r] <+: hist ∧ r.argv = [cs!"make", cs!"kernelversion"] ∧ versionFromStr (w.output pre r) = some v

/-- what is told about one group of options with dependencies, after the commands `hist` (C119 says what this is) -/
def optionsSaid (w : World) (b : Builder) (makefile : Str) (hist : List Run) (options : Dict Str (List Str)) : List ErrEvent :=
  let script : List Str → Run := fun args =>
    ⟨[cs!"./scripts/config", cs!"--file", b.configFile.str] ++ args, some b.kdir, none, false, makefile⟩
  match w.readLines hist (b.configFile.absolute w.cwd) with
  | none => []
  | some lines =>
    (editConfigCheckDepsL lines (fun before n => w.output (hist ++ before.map script) (script [cs!"-s", n])) options).1.filterMap fun r =>
      match r with
      | .log c => some c.event
      | .script _ => none

/-- What is told while configuring: the messages about the options for more syscalls and those of the architecture, for the version
printed; the .config is read after `h1` and `h2`. -/
def ConfigSaid (w : World) (b : Builder) (hist : List Run) (evs : List ErrEvent) : Prop :=
  ∃ v makefile h1 h2, PrintedBy w hist v ∧ h1 <+: h2 ∧ h2 <+: hist ∧
    evs = optionsSaid w b makefile h1 ((VDict.init kconfigMoreSyscallsTable).getItem v).1 ++
      optionsSaid w b makefile h2 (archKconfig b.store b.arch v)

/-- the first line of what the compiler prints when asked for its version, without surrounding white space -/
def CompilerSays (w : World) (cross : Str) (hist : List Run) (compiler : Str) : Prop :=
  ∃ pre r l rest, pre ++ [r] <+: hist ∧ r.argv = [cross ++ cs!"gcc", cs!"--version"] ∧ splitLines (w.output pre r) = l :: rest ∧
    compiler = strip l

/-- What a successful `--clean`, `--config` or `--build` writes; `compiler`, `version` and `time` are the texts after the colon, `conf`
and `build` the messages while configuring and building. -/
def buildSaid (args : Args) (compiler version time : Str) (conf build : List ErrEvent) : List ErrEvent :=
  (checkoutLine args).map .say ++
  (if args.build then
    [.say (cs!"Compiler: " ++ compiler), .say cs!"Cleaning kernel sources", .say (cs!"Detected kernel version: " ++ version),
      .say cs!"Configuring kernel"] ++ conf ++ [.say cs!"Building kernel (might take a while)"] ++ build ++ [.say (cs!"Build took " ++ time)]
  else if args.config then
    [.say (cs!"Compiler: " ++ compiler), .say cs!"Cleaning kernel sources", .say (cs!"Detected kernel version: " ++ version),
      .say cs!"Configuring kernel"] ++ conf ++ [.say cs!"Done"]
  else [.say cs!"Cleaning kernel sources", .say cs!"Done"])

/-- the same on the screen, without colors -/
inductive EndText (w : World) (t : Telling) (high : Bool) (hist : List Run) : Str → Prop
  | interrupted (p : Point) : w.interrupt = some p → EndText w t high hist cs!"Caught SIGINT, stopping\n"
  | fatal (m : Str) : CommandFailed w t high hist m ∨ m = t.helper hist ∨ TurnedDown m → EndText w t high hist (cs!"[FATAL] " ++ m ++ ['\n'])
  | lines (ls : List Str) : Apology ls → EndText w t high hist (ls.flatMap (· ++ ['\n']))

end Verif.Spec
