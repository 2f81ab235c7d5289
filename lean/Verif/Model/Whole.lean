import Verif.Model.LocDiag
import Verif.Model.EmuDiag
/-! # Messages of a whole extraction

kernel.py:299-585 with every message of level WARNING and above, those of the architecture, of the locations (`Model/LocDiag`) and
of the signatures included. `Model/Diag` leaves these three out. -/
set_option autoImplicit false

namespace Verif

/-- signature.py:94 -/
def strangeCall (file : Path) (line : Nat) : LogCall :=
  ⟨.error, cs!"This doesn't look like a syscall signature: %s:%d", [.obj file.str, .int line]⟩

/-- signature.py:41-97 `syscall_signature_from_source` -/
def signatureFromSourceL (file : Path) (lines : List Str) (line : Nat) (big : Bool) : LM (Option (List Str)) := do
  match ← LM.lift (signatureFromSource lines line big) with
  | some sig => LM.pure (some sig)
  | none => do
    LM.log [strangeCall file line]
    LM.pure none

/-- signature.py:151-173 the body of the loop for one syscall -/
def signSyscallL (fs : Files) (big haveSource : Bool) (metas : Option (Dict Str (List Str))) (sc : Syscall) : LM Syscall :=
  if sc.esoteric then LM.pure sc
  else if sc.goodLocation then do
    LM.lift (pyAssert haveSource)
    match sc.file, sc.line with
    | some file, some line =>
      match fs file with
      | none => LM.lift (.error .fileNotFound)
      | some lines => do
        let sig ← signatureFromSourceL file lines line big
        LM.pure { sc with signature := sig }
    | none, _ => LM.lift (.error .attr)
    | some _, none => LM.lift (.error .type)
  else LM.lift (signSyscall fs big haveSource metas sc)

/-- signature.py:151-173 the loop -/
def signLoopL (fs : Files) (big haveSource : Bool) (metas : Option (Dict Str (List Str))) : List Syscall → LM (List Syscall)
  | [] => LM.pure []
  | sc :: scs => do
    let s ← signSyscallL fs big haveSource metas sc
    let ss ← signLoopL fs big haveSource metas scs
    LM.pure (s :: ss)

/-- signature.py:99-175 `extract_syscall_signatures` -/
def extractSignaturesL (fs : Files) (e : Elf) (haveSource : Bool) (scs : List Syscall) : LM (List Syscall) := do
  let metas ← LM.lift e.syscallMeta
  signLoopL fs e.bigEndian haveSource metas scs

/-- what an extraction depends on besides the image -/
structure Surroundings where
  niOrder : List Symbol → List Symbol
  x86 : X86Env
  loc : LEnv
  kdir : Option Path
  rdir : Option Path

/-- the same for `Model/Kernel` -/
def Surroundings.kenv (w : Surroundings) (a : Arch) : KEnv :=
  { niOrder := w.niOrder, archVaddrs := extractVaddrs w.x86 a, locate := extractLocations w.loc a w.kdir w.rdir,
    files := w.loc.files, kdir := w.kdir }

/-- kernel.py:308-314 -/
def wholeEntriesL (text : Insn → Str) (w : Surroundings) (a : Arch) (e : Elf) : LM (List (Nat × Nat)) :=
  match a.tableName with
  | some t => do
    let vs ← vaddrsFromTableL a e t
    LM.pure (enumerate vs)
  | none => do
    LM.log [noTableCall]
    extractVaddrsL text w.x86 a e

/-- kernel.py:299-585 `__extract_syscalls` -/
def wholeL (text : Insn → Str) (show_ : Symbol → Str) (w : Surroundings) (a0 : Arch) (e : Elf) (v : Ver) : LM (List Syscall) :=
  if a0.bits32 ≠ e.bits32 then do
    LM.log [bitsCall a0.bits32]
    LM.pure []
  else do
    let a := a0.adjustAbi e
    let entries ← wholeEntriesL text w a e
    if entries.isEmpty then do
      LM.log [noVaddrCall]
      LM.pure []
    else if e.niSyscalls.isEmpty then do
      LM.log [noNiCall]
      LM.pure []
    else do
      let scs ← candidatesL show_ a e v (w.niOrder e.niSyscalls) entries
      let scs ← extractLocationsL w.loc a w.kdir w.rdir scs
      let scs ← extractSignaturesL w.loc.files e w.kdir.isSome scs
      finalL w.kdir e scs

end Verif
