import Verif.Model.Diag
import Verif.Model.X86Emu
/-! # Messages of the analysis of the syscall switch

The messages of level WARNING and above of /repo/src/systrack/arch/x86.py:341-599 and arch_base.py:297-303, with the same
simplifications as in Model/X86Emu. What iced_x86 shows for an instruction is a parameter `text`. -/
set_option autoImplicit false

namespace Verif

/-- a message, and `return None` or `return {}` -/
def refuse {α : Type} (fmt : Str) (args : List LogArg) : LM (Option α) := do
  LM.log [⟨.error, fmt, args⟩]
  LM.pure none

/-- x86.py:390-508 the body of the loop over the instructions; `none` is `return None` -/
def insnStepL (text : Insn → Str) (func : Str) (start stop nrReg : Nat) (st : Pass) (i : Insn) : LM (Option Pass) :=
  let cur := st.nrs i.ip
  let st' := { st with prev := some i.mnem }
  let here : List LogArg := [.int i.ip, .insn (text i)]
  if st.prev = some .test ∧ ¬ (i.mnem = .jcc .e ∨ i.mnem = .jcc .ne) then refuse cs!"Unsupported instruction after TEST: %#x: %r" here
  else match i.mnem with
  | .ret => LM.pure (some st')
  | .test =>
    match i.ops with
    | .reg _ :: .reg _ :: _ => LM.pure (some { st' with last := some 0, nrs := st.nrs.add i.nextIp cur })
    | _ => refuse cs!"Unsupported TEST instruction %#x: %r" here
  | .cmp =>
    match cmpOperands i.ops with
    | some (r, some (.imm v), inv) =>
      if r ≠ nrReg then refuse cs!"Unexpected register in CMP instruction %#x: %r" here
      else LM.pure (some { st' with last := some v, inv := inv, nrs := st.nrs.add i.nextIp cur })
    | _ => refuse cs!"Unsupported CMP instruction %#x: %r" here
  | .jmp => LM.pure (some (branchTo start stop st' i cur fun _ => false))
  | .jcc c =>
    if c = .other then refuse cs!"Unsupported Jcc instruction %#x: %r" here
    else match st.last with
    | none => refuse cs!"No previous CMP/TEST instruction for Jcc: %#x: %r" here
    | some imm =>
      let taken := fun n => cur n && takenFilter c imm n
      let notTaken := fun n => cur n && !takenFilter c imm n
      LM.pure (some (if st.inv then branchTo start stop st' i notTaken taken else branchTo start stop st' i taken notTaken))
  | .call =>
    if start ≤ i.target ∧ i.target < stop then refuse cs!"%s calling itself??? %r" [.obj func, .insn (text i)]
    else LM.pure (some (branchTo start stop st' i cur fun _ => false))
  | .other => LM.pure (some { st' with nrs := st.nrs.add i.nextIp cur })

/-- the loop over the instructions -/
def insnLoopL (text : Insn → Str) (func : Str) (start stop nrReg : Nat) : List Insn → Pass → LM (Option Pass)
  | [], st => LM.pure (some st)
  | i :: is, st => do
    match ← insnStepL text func start stop nrReg st i with
    | none => LM.pure none
    | some st' => insnLoopL text func start stop nrReg is st'

/-- x86.py:380-508 the outer loop -/
def passLoopL (text : Insn → Str) (func : Str) (start stop nrReg : Nat) (insns : List Insn) :
    Nat → Nrs → List Insn → LM (Option (Nrs × List Insn))
  | 0, _, _ => LM.lift (.error .hang)
  | fuel + 1, nrs, cands => do
    match ← insnLoopL text func start stop nrReg insns ⟨nrs, cands, false, none, none, false⟩ with
    | none => LM.pure none
    | some st =>
      if st.keep then passLoopL text func start stop nrReg insns fuel st.nrs st.cands else LM.pure (some (st.nrs, st.cands))

/-- x86.py:341-520 `__emulate_syscall_switch` -/
def emulateL (text : Insn → Str) (func : Str) (start size : Nat) (insns : List Insn) : LM (Option (Nrs × List Insn)) :=
  match numberReg insns with
  | none => refuse cs!"Could not find syscall number register" []
  | some r => passLoopL text func start (start + size) r insns (passBound insns) (initialNrs start) []

/-- x86.py:587-597 the loop over the numbers of one target; `none` is the conflict -/
def addNumbersL (vaddr : Nat) : List Nat → Dict Nat Nat → LM (Option (Dict Nat Nat))
  | [], d => LM.pure (some d)
  | n :: ns, d =>
    match dget n d with
    | some v =>
      if v ≠ vaddr then refuse cs!"Number %d leads to multiple vaddrs!? Got %#x and %#x. Bailing out!" [.int n, .int v, .int vaddr]
      else addNumbersL vaddr ns d
    | none => addNumbersL vaddr ns (dset n vaddr d)

/-- x86.py:563-597 the loop over the candidates -/
def collectL (text : Insn → Str) (numOrder : List Nat → List Nat) (nrs : Nrs) :
    List Insn → Bool → Dict Nat Nat → LM (Option (Dict Nat Nat))
  | [], _, d => LM.pure (some d)
  | i :: is, dflt, d =>
    let numbers := numbersAt nrs i.target
    if numbers.length = 0 then
      refuse cs!"Empty set of syscall numbers for %#x (target of %r). Unreachable!?" [.int i.target, .insn (text i)]
    else if numbers.length > 100 then
      if dflt then refuse cs!"Multiple default switch cases!?" [] else collectL text numOrder nrs is true d
    else do
      match ← addNumbersL i.target (numOrder numbers) d with
      | none => LM.pure none
      | some d => collectL text numOrder nrs is dflt d

/-- x86.py:522-599 `extract_syscall_vaddrs`, arch_base.py:297-303 for the other architectures -/
def extractVaddrsL (text : Insn → Str) (x : X86Env) (a : Arch) (e : Elf) : LM (List (Nat × Nat)) :=
  if a.kind ≠ .x86 then do
    LM.log [⟨.error, cs!"Sorry, don't know how to extract syscall vaddrs for this arch!", []⟩]
    LM.pure []
  else do
    LM.lift (pyAssert a.tableName.isNone)
    match dget (a.abi ++ cs!"_sys_call") e.functions with
    | none => do
      LM.log [⟨.error, cs!"Could not find function %s", [.obj (a.abi ++ cs!"_sys_call")]⟩]
      LM.pure []
    | some sym =>
      if sym.size < 0x10 then do
        LM.log [⟨.error, cs!"%s is too small (%d bytes)", [.obj sym.name, .int sym.size]⟩]
        LM.pure []
      else do
        let code ← LM.lift (e.readSymbol sym)
        match ← emulateL text sym.name sym.realVaddr sym.size (x.decode a.bits32 code sym.realVaddr) with
        | none => LM.pure []
        | some (nrs, cands) =>
          match ← collectL text x.numOrder nrs (x.candOrder cands) false [] with
          | none => LM.pure []
          | some d => LM.pure d

end Verif
