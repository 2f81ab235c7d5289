import Verif.Spec.Arch
import Verif.Spec.Utils
import Verif.Model.Main
/-! # Specifications for the command line program (C73-C77, C83-C85) -/
set_option autoImplicit false

namespace Verif.Spec

/-- an option given with a non-empty value -/
def Given (o : Option Str) : Prop := ∃ s, o = some s ∧ s ≠ []

/-- the values and aliases in the table of `--arch help` -/
def ArchName (n : Str) : Prop := ∃ row ∈ helpTable, n ∈ row.value :: row.aliases

/-- `--arch help` or `--arch ?`, in any case -/
def AsksForHelp (args : Args) : Prop :=
  ∃ a, args.arch = some a ∧ (a.map Char.toLower = cs!"help" ∨ a.map Char.toLower = cs!"?")

/-- `--arch` with a name that is not in the table -/
def UnknownArch (args : Args) : Prop := ∃ a, args.arch = some a ∧ ¬ ArchName (a.map Char.toLower)

/-- `--build`, `--config` or `--clean` -/
def BuildMode (args : Args) : Prop := args.build = true ∨ args.config = true ∨ args.clean = true

/-- Command lines that make no sense. -/
inductive Invalid (args : Args) : Prop
  | arch : UnknownArch args → Invalid args
  | nothing : ¬ Given args.kdir → ¬ Given args.vmlinux → Invalid args
  | noKdir : ¬ Given args.kdir → Given args.checkout ∨ args.config = true ∨ args.build = true → Invalid args
  | noArch : ¬ Given args.arch → args.config = true ∨ args.build = true → Invalid args

/-- nothing was run, no file or directory was touched, nothing was written to standard output -/
def Untouched (s s' : MState) : Prop := s'.b = s.b ∧ s'.dirs = s.dirs ∧ s'.out = s.out ∧ s'.store = s.store

/-- messages are not suppressed: no `-q`, or some `-v` -/
def Talkative (args : Args) : Prop := args.quiet = 0 ∨ 0 < args.verbose

/-- the first word of a command -/
def Runs (name : Str) (r : Run) : Prop := r.argv.head? = some name

/-- `git checkout REF` inside KDIR -/
def IsCheckout (kdir ref : Str) (r : Run) : Prop :=
  r.argv = [cs!"git", cs!"checkout", ref] ∧ r.cwd = some (parsePath kdir)

/-- the process ended with this exit status: by returning it from `main()` or through `sys.exit` -/
def ExitStatus (r : Res Nat) (n : Nat) : Prop := r = .ok n ∨ r = .error (.exit n)

/-- a path as it should be printed: relative to the source directory if inside of it -/
def Shown (kdir : Path) (p q : Path) : Prop :=
  (∃ rest, p = ⟨kdir.abs, kdir.parts ++ rest⟩ ∧ q = ⟨false, rest⟩) ∨
  ((¬ ∃ rest, p = ⟨kdir.abs, kdir.parts ++ rest⟩) ∧ q = p)

/-- `q` is `p` with its path changed to one satisfying `P` -/
def PathChanged (P : Path → Path → Prop) (p q : Syscall) : Prop :=
  ∃ f, q = { p with file := f } ∧
    match p.file, f with
    | none, none => True
    | some a, some b => P a b
    | _, _ => False

/-- the exceptions of the instantiation -/
def InitError (e : Exc) : Prop :=
  e = .named "KernelVersionError" ∨ e = .named "KernelArchError" ∨ e = .named "KernelWithoutSymbolsError" ∨
  e = .named "KernelMultiABIError"

/-- an ELF loaded from an image: its content and what `readelf` printed about it, when run at that time on that path -/
def LoadedFrom (w : MWorld) (hist : List Run) (vmlinux : Path) (e : Elf) : Prop :=
  ∃ data r1 r2, w.content hist vmlinux = some data ∧
    r1.argv = [cs!"readelf", cs!"-Ws", vmlinux.str] ∧ w.status hist r1 = some 0 ∧
    r2.argv = [cs!"readelf", cs!"-WS", vmlinux.str] ∧ w.status (hist ++ [r1]) r2 = some 0 ∧
    Elf.load data (w.output (hist ++ [r1]) r2) (splitLines (w.output hist r1)) = .ok e ∧ e.symbols ≠ []

/-- What the constructor checked, for a kernel image. -/
structure GoodKernel (n : Option Str) (e : Elf) (a : Arch) (v : Ver) : Prop where
  symbols : e.symbols ≠ []
  version : versionFromVmlinux e = .ok (some v)
  accepted : a.matches e = .ok true
  named : ∀ m, n = some m → archFromName m v = .ok a
  detected : n = none → ∃ k b abi, archFromVmlinux e = .ok (some (k, b, [abi])) ∧ newArch k v abi b = .ok a

/-- What a successful analysis printed: the syscalls extracted from the image, with their paths as they should be
printed, in the chosen format. `hist` are the commands run before the extraction. -/
def Printed (w : MWorld) (args : Args) (vmlinux : Path) (hist : List Run) (e : Elf) (a : Arch) (v : Ver)
    (scs : List Syscall) (text : Str) : Prop :=
  ∃ found, extractSyscalls a e v (kenvOf w hist a e vmlinux (pathOf args.kdir) (pathOf args.remap)) = .ok found ∧ found ≠ [] ∧
    scs.length = found.length ∧
    (∀ (i : Nat) (p : Syscall), found[i]? = some p → ∃ q, scs[i]? = some q ∧
      match pathOf args.kdir, args.absolutePaths with
      | some kdir, false => PathChanged (Shown kdir) p q
      | _, _ => q = p) ∧
    outputSyscalls w.jinja w.css w.js ⟨v, cs!"vmlinux", a.adjustAbi e, scs⟩ args.format = .ok text

/-- why `git checkout REF` was run: REF was given, or `auto` was given and REF is the tag of the version in the image -/
def Requested (w : MWorld) (args : Args) (ref : Str) : Prop :=
  (args.checkout = some ref ∧ ref ≠ [] ∧ ref ≠ cs!"auto") ∨
  (args.checkout = some cs!"auto" ∧ ¬ BuildMode args ∧ ∃ p e v hist, vmlinuxPath args = some p ∧ LoadedFrom w hist p e ∧
    versionFromVmlinux e = .ok (some v) ∧ versionTag v = .ok ref)

/-- one line of the summary: left out when there is nothing to count -/
def CountLine (pre : Str) (n : Nat) (what post : Str) : List Str :=
  if n = 0 then [] else [pre ++ natRepr n ++ what ++ (if n = 1 then [] else cs!"s") ++ post]

/-- the summary for the syscalls printed -/
def Summary (kdirGiven : Bool) (scs : List Syscall) : List Str :=
  [cs!"Found " ++ natRepr scs.length ++ cs!" implemented syscalls"] ++
  CountLine cs!"Found " (scs.countP fun sc => sc.greppedLocation) cs!" definition location" cs!" through grepping" ++
  CountLine cs!"Could not find definition location for " (scs.countP fun sc => sc.file.isNone) cs!" syscall" [] ++
  (if kdirGiven then
    CountLine cs!"Could not extract signature for " (scs.countP fun sc => sc.signature.isNone) cs!" syscall" []
  else []) ++
  [[]]

/-- `make kernelversion` answered with a version that is too old for the row -/
def TooOld (w : MWorld) (hist : List Run) (k : Path) (row : HelpRow) : Prop :=
  ∃ (r : Run) (v : Ver), r.argv = [cs!"make", cs!"kernelversion"] ∧ r.cwd = some k ∧ versionFromStr (w.output hist r) = some v ∧
    ¬ minVersion row.kind row.abi row.kernel32 ≤ v

end Verif.Spec
