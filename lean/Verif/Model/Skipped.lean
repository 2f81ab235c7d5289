import Verif.Model.X86Emu
/-! # The instructions skipped by the analysis of the syscall switch, /repo/src/systrack/arch/x86.py:372-373, 482-490, 512-518

They are counted and sorted for a message of level DEBUG. The sorting happens whatever the level. -/
set_option autoImplicit false

namespace Verif

/-- x86.py:485-486 `skipped_insns[insn] += 1`; equal instructions (equal `key`) share an entry -/
def countInsn (i : Insn) : List (Insn × Nat) → List (Insn × Nat)
  | [] => [(i, 1)]
  | (j, n) :: cs => if j.key = i.key then (j, n + 1) :: cs else (j, n) :: countInsn i cs

/-- x86.py:373, 482-490 `skipped_insns` after the first pass over all instructions -/
def skippedInsns (isNop : Insn → Bool) (insns : List Insn) : List (Insn × Nat) :=
  insns.foldl (fun cs i => if i.mnem = .other ∧ isNop i = false then countInsn i cs else cs) []

/-- two entries with equal counts -/
def hasTie : List (Insn × Nat) → Bool
  | [] => false
  | (_, n) :: cs => cs.any (fun c => c.2 = n) || hasTie cs

/-- x86.py:515 `sorted(skipped_insns.items(), key=itemgetter(1, 0), reverse=True)`: entries are compared by count, and by
instruction if the counts are equal. If instructions have no order (`ordered` is false), that comparison raises TypeError.
Simplified: the algorithm is not modelled; every sorting by comparisons compares any two entries that end up next to each
other, so with equal counts instructions are compared. -/
def sortSkipped (ordered : Bool) (cs : List (Insn × Nat)) : Res Unit :=
  if ordered = false ∧ hasTie cs = true then .error .type else .ok ()

/-- x86.py:522-599 `extract_syscall_vaddrs` with the sorting at the end of `__emulate_syscall_switch` -/
def extractVaddrsS (ordered : Bool) (isNop : Insn → Bool) (x : X86Env) (a : Arch) (e : Elf) : Res (List (Nat × Nat)) :=
  if a.kind ≠ .x86 then .ok []
  else do
    pyAssert a.tableName.isNone
    match dget (a.abi ++ cs!"_sys_call") e.functions with
    | none => .ok []
    | some sym =>
      if sym.size < 0x10 then .ok []
      else do
        let code ← e.readSymbol sym
        let insns := x.decode a.bits32 code sym.realVaddr
        let res ← emulate sym.realVaddr sym.size insns
        match res with
        | none => .ok []
        | some (nrs, cands) => do
          sortSkipped ordered (skippedInsns isNop insns)
          match collect x.numOrder nrs (x.candOrder cands) false [] with
          | none => .ok []
          | some d => .ok d

end Verif
