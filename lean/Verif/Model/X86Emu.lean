import Verif.Model.Kernel
/-! # Model of the analysis of the syscall switch, /repo/src/systrack/arch/x86.py:341-599

The decoder (iced_x86) is a parameter; decoded instructions are records with what the analysis looks at. Sets of syscall
numbers are Boolean functions; they only ever hold numbers below `nrMax`, so tests and loops over them go over
`List.range nrMax`. Not modelled: log messages (errors: `Model/EmuDiag`; the sorting of skipped instructions for one of them: `Model/Skipped`) and the
memory needed for sets such as `frozenset(range(immediate))`. -/
set_option autoImplicit false

namespace Verif

/-- operands of an instruction -/
inductive Operand where
  | reg (r : Nat)
  | imm (v : Nat)
  | other
  deriving DecidableEq, Repr

/-- conditions of jumps: the six supported ones, and others -/
inductive Cc where
  | a | ae | b | be | e | ne | other
  deriving DecidableEq, Repr

/-- what kind of instruction it is: `jmp`, `jcc` and `call` are the direct near (or short) ones, everything else (indirect
jumps included) is `other` -/
inductive Mnem where
  | ret | test | cmp | jmp | jcc (c : Cc) | call | other
  deriving DecidableEq, Repr

/-- A decoded instruction. `key` stands for what `==` and `hash` look at (iced_x86 compares code and operands, not the
address): equal keys mean equal objects. -/
structure Insn where
  ip : Nat
  nextIp : Nat
  mnem : Mnem
  ops : List Operand
  target : Nat
  key : Nat
  deriving DecidableEq, Repr

/-- x86.py:366 `nr_max` -/
def nrMax : Nat := 0x1000

/-- sets of numbers by address: `DefaultDict[int, FrozenSet[int]]` -/
abbrev Nrs := Nat → Nat → Bool

/-- `nrs[addr] |= s` -/
def Nrs.add (m : Nrs) (addr : Nat) (s : Nat → Bool) : Nrs := fun x n => if x = addr then m x n || s n else m x n

/-- `s.issubset(t)` -/
def subsetB (s t : Nat → Bool) : Bool := (List.range nrMax).all fun n => !s n || t n

/-- `op_kind(i) == REGISTER` -/
def firstReg : List Operand → Option Nat
  | [] => none
  | .reg r :: _ => some r
  | _ :: os => firstReg os

/-- x86.py:349-359 the register compared first -/
def numberReg : List Insn → Option Nat
  | [] => none
  | i :: is =>
    if i.mnem = .cmp ∨ i.mnem = .test then
      match firstReg i.ops with
      | some r => some r
      | none => numberReg is
    else numberReg is

/-- variables of one pass, x86.py:386-388, and those that outlive it -/
structure Pass where
  nrs : Nrs
  cands : List Insn
  keep : Bool
  prev : Option Mnem
  last : Option Nat
  inv : Bool

/-- x86.py:456-469 `taken_filter` -/
def takenFilter (c : Cc) (imm n : Nat) : Bool :=
  match c with
  | .a => decide (imm + 1 ≤ n) && decide (n < nrMax)
  | .ae => decide (imm ≤ n) && decide (n < nrMax)
  | .b => decide (n < imm)
  | .be => decide (n < imm + 1)
  | .e => decide (n = imm)
  | .ne => decide (n < imm) || (decide (imm + 1 ≤ n) && decide (n < nrMax))
  | .other => false

/-- `candidate_insns.add(insn)` -/
def addCand (cands : List Insn) (i : Insn) : List Insn := if cands.any (fun c => c.key = i.key) then cands else cands ++ [i]

/-- x86.py:415-428 the register, the index of the immediate and `invert_condition` of a CMP -/
def cmpOperands (ops : List Operand) : Option (Nat × Option Operand × Bool) :=
  match ops with
  | .reg r :: os => some (r, os.head?, false)
  | o :: .reg r :: _ => some (r, some o, true)
  | _ => none

/-- x86.py:489-508 the end of the loop body, for branches -/
def branchTo (start stop : Nat) (st : Pass) (i : Insn) (taken notTaken : Nat → Bool) : Pass :=
  let inside := decide (start ≤ i.target) && decide (i.target < stop)
  let keep := st.keep || (inside && decide (i.target < i.ip) && !subsetB taken (st.nrs i.target))
  let cands := if inside then st.cands else addCand st.cands i
  { st with nrs := (st.nrs.add i.target taken).add i.nextIp notTaken, keep := keep, cands := cands }

/-- x86.py:390-508 the body of the loop over the instructions; `none` is `return None` -/
def insnStep (start stop nrReg : Nat) (st : Pass) (i : Insn) : Option Pass :=
  let cur := st.nrs i.ip
  let st' := { st with prev := some i.mnem }
  if st.prev = some .test ∧ ¬ (i.mnem = .jcc .e ∨ i.mnem = .jcc .ne) then none
  else match i.mnem with
  | .ret => some st'
  | .test =>
    match i.ops with
    | .reg _ :: .reg _ :: _ => some { st' with last := some 0, nrs := st.nrs.add i.nextIp cur }
    | _ => none
  | .cmp =>
    match cmpOperands i.ops with
    | some (r, some (.imm v), inv) =>
      if r ≠ nrReg then none
      else some { st' with last := some v, inv := inv, nrs := st.nrs.add i.nextIp cur }
    | _ => none
  | .jmp => some (branchTo start stop st' i cur fun _ => false)
  | .jcc c =>
    if c = .other then none
    else match st.last with
    | none => none
    | some imm =>
      let taken := fun n => cur n && takenFilter c imm n
      let notTaken := fun n => cur n && !takenFilter c imm n
      some (if st.inv then branchTo start stop st' i notTaken taken else branchTo start stop st' i taken notTaken)
  | .call =>
    if start ≤ i.target ∧ i.target < stop then none
    else some (branchTo start stop st' i cur fun _ => false)
  | .other => some { st' with nrs := st.nrs.add i.nextIp cur }

/-- the loop over the instructions -/
def insnLoop (start stop nrReg : Nat) : List Insn → Pass → Option Pass
  | [], st => some st
  | i :: is, st =>
    match insnStep start stop nrReg st i with
    | none => none
    | some st' => insnLoop start stop nrReg is st'

/-- x86.py:380-508 the outer loop; running out of `fuel` is an endless loop -/
def passLoop (start stop nrReg : Nat) (insns : List Insn) : Nat → Nrs → List Insn → Res (Option (Nrs × List Insn))
  | 0, _, _ => .error .hang
  | fuel + 1, nrs, cands =>
    match insnLoop start stop nrReg insns ⟨nrs, cands, false, none, none, false⟩ with
    | none => .ok none
    | some st => if st.keep then passLoop start stop nrReg insns fuel st.nrs st.cands else .ok (some (st.nrs, st.cands))

/-- x86.py:368 all numbers at the start of the function -/
def initialNrs (start : Nat) : Nrs := fun x n => decide (x = start) && decide (n < nrMax)

/-- enough rounds, see C44 -/
def passBound (insns : List Insn) : Nat := insns.length * nrMax + 1

/-- x86.py:341-520 `__emulate_syscall_switch`, given the decoded instructions of the function at `start` -/
def emulate (start size : Nat) (insns : List Insn) : Res (Option (Nrs × List Insn)) :=
  match numberReg insns with
  | none => .ok none
  | some r => passLoop start (start + size) r insns (passBound insns) (initialNrs start) []

/-- the numbers at an address -/
def numbersAt (nrs : Nrs) (addr : Nat) : List Nat := (List.range nrMax).filter (nrs addr)

/-- x86.py:587-597 the loop over the numbers of one target; `none` is the conflict -/
def addNumbers (vaddr : Nat) : List Nat → Dict Nat Nat → Option (Dict Nat Nat)
  | [], d => some d
  | n :: ns, d =>
    match dget n d with
    | some v => if v ≠ vaddr then none else addNumbers vaddr ns d
    | none => addNumbers vaddr ns (dset n vaddr d)

/-- x86.py:563-597 the loop over the candidates in the order `cands`; `numOrder` is the order in which a set of numbers is
iterated. `none` is `return {}`. -/
def collect (numOrder : List Nat → List Nat) (nrs : Nrs) : List Insn → Bool → Dict Nat Nat → Option (Dict Nat Nat)
  | [], _, d => some d
  | i :: is, dflt, d =>
    let numbers := numbersAt nrs i.target
    if numbers.length = 0 then none
    else if numbers.length > 100 then
      if dflt then none else collect numOrder nrs is true d
    else
      match addNumbers i.target (numOrder numbers) d with
      | none => none
      | some d => collect numOrder nrs is dflt d

/-- The decoder and the iteration orders of sets. -/
structure X86Env where
  /-- `list(Decoder(bits, code, ip=start))` -/
  decode : Bool → Bytes → Nat → List Insn
  candOrder : List Insn → List Insn
  numOrder : List Nat → List Nat

/-- x86.py:522-599 `extract_syscall_vaddrs`, arch_base.py:297-303 for the other architectures -/
def extractVaddrs (x : X86Env) (a : Arch) (e : Elf) : Res (List (Nat × Nat)) :=
  if a.kind ≠ .x86 then .ok []
  else do
    pyAssert a.tableName.isNone
    match dget (a.abi ++ cs!"_sys_call") e.functions with
    | none => .ok []
    | some sym =>
      if sym.size < 0x10 then .ok []
      else do
        let code ← e.readSymbol sym
        let res ← emulate sym.realVaddr sym.size (x.decode a.bits32 code sym.realVaddr)
        match res with
        | none => .ok []
        | some (nrs, cands) =>
          match collect x.numOrder nrs (x.candOrder cands) false [] with
          | none => .ok []
          | some d => .ok d

end Verif
