import Verif.Model.Main
import Verif.Model.Diag
/-! # Model of a `Kernel` object over its life, /repo/src/systrack/kernel.py:36-164, 299-315, 613-710

The other models follow the program, which makes one object, uses it once and ends. Here one object is used any number
of times, in any order, by code that goes on after exceptions. Each use has its own outside (`MWorld`), so anything may
happen between two uses. -/
set_option autoImplicit false

namespace Verif

/-- kernel.py:54-59 attributes assigned by the constructor only. The open file of the image is its parsed content;
simplification: nobody writes to that file afterwards. `store` are the class-level tables (other objects are not made
in between). -/
structure KObject where
  image : Option (Path × Elf)
  kdir : Option Path
  outdir : Option Path
  rdir : Option Path
  toolchainPrefix : Option Str
  store : KStore

/-- kernel.py:37-42, 71-73 attributes assigned later: `b.version` is `__version`, `b.backup` is `__backup_makefile` -/
structure OState where
  b : BState
  /-- `__version_source` -/
  source : Option Str
  /-- `arch`, changed by `adjust_abi` -/
  arch : Arch
  /-- `__syscalls` -/
  syscalls : Option (List Syscall)

/-- methods of an object -/
def OM (α : Type) := OState → Res α × OState

def OM.pure {α : Type} (x : α) : OM α := fun s => (.ok x, s)

def OM.bind {α β : Type} (m : OM α) (f : α → OM β) : OM β := fun s =>
  match m s with
  | (.ok x, s') => f x s'
  | (.error e, s') => (.error e, s')

instance : Monad OM where
  pure := OM.pure
  bind := OM.bind

def OM.raise {α : Type} (e : Exc) : OM α := fun s => (.error e, s)

def OM.lift {α : Type} (r : Res α) : OM α := fun s => (r, s)

def OM.modify (f : OState → OState) : OM Unit := fun s => (.ok (), f s)

def OM.get : OM OState := fun s => (.ok s, s)

/-- an action of Model/Build -/
def OM.ofB {α : Type} (m : BM α) : OM α := fun s =>
  match m s.b with
  | (r, b) => (r, { s with b := b })

/-- kernel.py:44-83 `Kernel.__init__`. With an image the version is read from it; without one, `make` is asked. -/
def newObject (w : MWorld) (archName : Option Str) (vmlinux kdir outdir rdir : Option Path) (cross : Str) :
    MM (KObject × OState) :=
  match vmlinux with
  | some p => do
    let k ← newAnalysis w archName p kdir
    let s ← MM.get
    let c ← MM.lift (createArch s.store k.arch.kind k.version k.arch.abi k.arch.bits32)
    MM.modify fun s => { s with store := c.2 }
    MM.pure (⟨some (p, k.elf), kdir, outdir, rdir, some cross, c.2⟩,
      ⟨{ s.b with version := some k.version }, some cs!"vmlinux", k.arch, none⟩)
  | none => do
    let b ← newBuilder w archName kdir outdir cross
    let s ← MM.get
    MM.pure (⟨none, some b.kdir, outdir, rdir, some cross, b.store⟩, ⟨s.b, some cs!"make", b.arch, none⟩)

section
variable (w : MWorld) (o : KObject)

/-- kernel.py:114-117 `__version_from_make`, and kernel.py:128-129 -/
def askMake (k : Path) : OM Ver := do
  let out ← OM.ofB (ensureCommand w.toWorld [cs!"make", cs!"kernelversion"] (some k) none)
  OM.modify fun s => { s with b := { s.b with version := versionFromStr out }, source := some cs!"make" }
  match versionFromStr out with
  | none => OM.raise (.named "KernelVersionError")
  | some v => OM.pure v

/-- kernel.py:119-133 `version` -/
def versionO : OM Ver := do
  let s ← OM.get
  match s.b.version with
  | some v => OM.pure v
  | none =>
    match o.image, o.kdir with
    | some (_, e), _ => do
      let v ← OM.lift (versionFromVmlinux e)
      OM.modify fun s => { s with b := { s.b with version := v }, source := some cs!"vmlinux" }
      match v with
      | none => OM.raise (.named "KernelVersionError")
      | some v => OM.pure v
    | none, some k => askMake w k
    | none, none => OM.raise (.named "KernelVersionError")

/-- `f'{x}'` of a text or None -/
def strOrNone (x : Option Str) : Str := x.getD cs!"None"

/-- kernel.py:135-137 `version_str` -/
def versionStrO : OM Str := do
  let v ← versionO w o
  let s ← OM.get
  OM.pure (versionStr v (strOrNone s.source))

/-- kernel.py:139-144 `version_tag` -/
def versionTagO : OM Str := do
  let v ← versionO w o
  OM.lift (versionTag v)

/-- kernel.py:146-150 `version_source`; a version is never an empty tuple -/
def versionSourceO : OM (Option Str) := do
  let s ← OM.get
  if s.source.isSome then OM.pure s.source
  else do
    let _ ← versionO w o
    let s ← OM.get
    OM.pure s.source

/-- kernel.py:152-161 an attribute of `self.vmlinux` -/
def ofImage (f : Elf → Bool) : OM Bool :=
  match o.image with
  | none => OM.raise .attr
  | some (_, e) => OM.pure (f e)

/-- kernel.py:163-167 `syscalls`, with the part of kernel.py:299-305 that changes the object. Simplification: the
version (cached, or read again from the image without any command) is read first and not in the loop of
kernel.py:455-478. -/
def syscallsO : OM (List Syscall) := do
  let s ← OM.get
  match s.syscalls with
  | some l => OM.pure l
  | none =>
    match o.image with
    | none => OM.raise .attr
    | some (p, e) => do
      let v ← versionO w o
      OM.modify fun t => { t with arch := if s.arch.bits32 = e.bits32 then s.arch.adjustAbi e else s.arch }
      let l ← OM.lift (extractSyscalls s.arch e v (kenvOf w s.b.hist s.arch e p o.kdir o.rdir))
      OM.modify fun t => { t with syscalls := some l }
      OM.pure l

/-- what `make` reads of the object -/
def KObject.builder (s : OState) (k : Path) : Builder := ⟨k, o.outdir, o.toolchainPrefix, s.arch, o.store⟩

/-- something that needs `self.kdir`; without it, `self.kdir.absolute()` (kernel.py:619) raises AttributeError -/
def withKdir {α : Type} (f : Builder → BM α) : OM α := do
  let s ← OM.get
  match o.kdir with
  | none => OM.raise .attr
  | some k => OM.ofB (f (o.builder s k))

/-- kernel.py:613-630 `make` with `ensure=True` -/
def makeO (target : Str) (input : Option Str) : OM Unit := withKdir o fun b => make w.toWorld b target input

/-- kernel.py:613-630 `make` with `ensure=False` -/
def tryMakeO (target : Str) : OM Nat := withKdir o fun b => tryMake w.toWorld b target

/-- `self.__version = None` -/
def forget : OM Unit := OM.modify fun s => { s with b := { s.b with version := none } }

/-- kernel.py:632-640 `sync_config` -/
def syncO : OM Unit := do
  let v ← versionO w o
  if verGe v [3, 7] then makeO w o cs!"olddefconfig" none
  else makeO w o cs!"oldconfig" (some (List.replicate 1000 '\n'))

/-- kernel.py:642-644 `clean` -/
def cleanO : OM Unit := do
  forget
  makeO w o cs!"distclean" none

/-- kernel.py:660-675 one group of options -/
def groupO (f : Builder → Ver → BM Unit) : OM Unit := do
  let v ← versionO w o
  withKdir o fun b => f b v
  syncO w o

/-- kernel.py:646-675 `configure`; without any directory the division of kernel.py:647 raises TypeError. Every
architecture has a target, so that without `kdir` the first `make` raises. -/
def configureO : OM Unit := do
  if o.outdir.isNone && o.kdir.isNone then OM.raise .type
  else do
    forget
    let s ← OM.get
    s.arch.configTargets.forM fun t => makeO w o t none
    groupO w o fun b v => applyOptions w.toWorld b ((VList.init kconfigDebuggingTable).getItem v).1
    groupO w o fun b v => applyOptions w.toWorld b ((VList.init kconfigCompatibilityTable).getItem v).1
    groupO w o fun b v => applyOptionsCheck w.toWorld b ((VDict.init kconfigMoreSyscallsTable).getItem v).1
    groupO w o fun b v => applyOptionsCheck w.toWorld b (archKconfig b.store b.arch v)

/-- kernel.py:677-710 `build`; without `kdir` the division of kernel.py:590 raises TypeError, or else `make` -/
def buildO (tryDisableOpt : Bool) : OM Unit := do
  forget
  match o.kdir with
  | none => OM.raise (if tryDisableOpt then .type else .attr)
  | some _ => withKdir o fun b => build w.toWorld b tryDisableOpt

end

/-- The public properties and methods. -/
inductive Op where
  | version
  | versionStr
  | versionTag
  | versionSource
  | canLocate
  | canSign
  | syscalls
  | make (target : Str) (ensure : Bool)
  | syncConfig
  | clean
  | configure
  | build (tryDisableOpt : Bool)
  deriving DecidableEq

/-- What they give. -/
inductive Reply where
  | version (v : Ver)
  | text (s : Str)
  | source (s : Option Str)
  | flag (b : Bool)
  | syscalls (l : List Syscall)
  | status (n : Nat)
  | none
  deriving DecidableEq

/-- answers of one kind -/
def OM.as {α : Type} (f : α → Reply) (m : OM α) : OM Reply := do
  let x ← m
  OM.pure (f x)

/-- one use, kernel.py:119-167, 613-710 -/
def perform (w : MWorld) (o : KObject) : Op → OM Reply
  | .version => (versionO w o).as .version
  | .versionStr => (versionStrO w o).as .text
  | .versionTag => (versionTagO w o).as .text
  | .versionSource => (versionSourceO w o).as .source
  | .canLocate => (ofImage o canLocate).as .flag
  | .canSign => (ofImage o canSign).as .flag
  | .syscalls => (syscallsO w o).as .syscalls
  | .make t true => (makeO w o t none).as fun _ => .status 0
  | .make t false => (tryMakeO w o t).as .status
  | .syncConfig => (syncO w o).as fun _ => .none
  | .clean => (cleanO w o).as fun _ => .none
  | .configure => (configureO w o).as fun _ => .none
  | .build d => (buildO w o d).as fun _ => .none

/-- Uses one after the other, whatever each of them gave or raised: what was given, and the object then. -/
def useAll (o : KObject) : List (MWorld × Op) → OState → List (Op × Res Reply) × OState
  | [], s => ([], s)
  | (w, op) :: us, s =>
    let r := perform w o op s
    let rest := useAll o us r.2
    ((op, r.1) :: rest.1, rest.2)

end Verif
