import Verif.Model.X86Emu
/-! # Specification for the analysis of the syscall switch: running the code

The machine has the number (never written), an instruction pointer and the result of the last compare, represented by
the value the number was compared with. -/
set_option autoImplicit false

namespace Verif.Spec

/-- the condition of a jump after comparing `n` with `v` (both unsigned) -/
def CondHolds (c : Cc) (n v : Nat) : Prop :=
  match c with
  | .a => n > v
  | .ae => n ≥ v
  | .b => n < v
  | .be => n ≤ v
  | .e => n = v
  | .ne => n ≠ v
  | .other => False

/-- one instruction with number `n` in register `r`: from `(ip, flags)` to `(ip', flags')` -/
inductive Step (r : Nat) (insns : List Insn) (n : Nat) : Nat × Option Nat → Nat × Option Nat → Prop where
  | cmp (i : Insn) (v : Nat) (f : Option Nat) : i ∈ insns → i.mnem = .cmp → i.ops = [.reg r, .imm v] → Step r insns n (i.ip, f) (i.nextIp, some v)
  | test (i : Insn) (f : Option Nat) : i ∈ insns → i.mnem = .test → i.ops = [.reg r, .reg r] → Step r insns n (i.ip, f) (i.nextIp, some 0)
  | jmp (i : Insn) (f : Option Nat) : i ∈ insns → i.mnem = .jmp → Step r insns n (i.ip, f) (i.target, f)
  | call (i : Insn) (f : Option Nat) : i ∈ insns → i.mnem = .call → Step r insns n (i.ip, f) (i.target, f)
  | taken (i : Insn) (c : Cc) (v : Nat) : i ∈ insns → i.mnem = .jcc c → CondHolds c n v → Step r insns n (i.ip, some v) (i.target, some v)
  | fall (i : Insn) (c : Cc) (v : Nat) : i ∈ insns → i.mnem = .jcc c → ¬ CondHolds c n v → Step r insns n (i.ip, some v) (i.nextIp, some v)
  | other (i : Insn) (f : Option Nat) : i ∈ insns → i.mnem = .other → Step r insns n (i.ip, f) (i.nextIp, f)

/-- running from the start, with unknown flags -/
inductive Reach (r start : Nat) (insns : List Insn) (n : Nat) : Nat × Option Nat → Prop where
  | start : Reach r start insns n (start, none)
  | step (s s' : Nat × Option Nat) : Reach r start insns n s → Step r insns n s s' → Reach r start insns n s'

/-- the instructions lie one after the other from `start` to `stop` -/
def Contiguous : Nat → Nat → List Insn → Prop
  | start, stop, [] => start = stop
  | start, stop, i :: is => i.ip = start ∧ i.ip < i.nextIp ∧ Contiguous i.nextIp stop is

/-- running with number `n` leaves the function for `t` -/
def LeavesTo (r start stop : Nat) (insns : List Insn) (n t : Nat) : Prop :=
  (∃ f, Reach r start insns n (t, f)) ∧ ¬ (start ≤ t ∧ t < stop)

/-- The instructions the analysis is made for: compares of the number with constants, tests of the number right before
je or jne (or at the end), supported conditional jumps (after some compare), jumps, calls out of the function, returns and
instructions that do not matter. The number is in the register compared first. -/
def Supported (r start stop : Nat) (insns : List Insn) : Prop :=
  (∃ i ∈ insns, i.mnem = .cmp ∨ i.mnem = .test) ∧
  ∀ pre i post, insns = pre ++ i :: post →
    (i.mnem = .cmp → ∃ v, i.ops = [.reg r, .imm v]) ∧
    (i.mnem = .test → i.ops = [.reg r, .reg r] ∧ ∀ j post', post = j :: post' → j.mnem = .jcc .e ∨ j.mnem = .jcc .ne) ∧
    (∀ c, i.mnem = .jcc c → c ≠ .other ∧ ∃ k ∈ pre, k.mnem = .cmp ∨ k.mnem = .test) ∧
    (i.mnem = .call → ¬ (start ≤ i.target ∧ i.target < stop))

/-- the constant an instruction compares the number with -/
def compareValue (i : Insn) : Option Nat :=
  match i.mnem, i.ops with
  | .test, _ => some 0
  | .cmp, [.reg _, .imm v] => some v
  | _, _ => none

/-- the constant of the last compare in a list of instructions -/
def lastCompare (insns : List Insn) : Option Nat := insns.foldl (fun acc i => (compareValue i).or acc) none

/-- the flags seen by a conditional jump are always those of the compare that textually precedes it -/
def FlagsTextual (r start : Nat) (insns : List Insn) : Prop :=
  ∀ n f pre i post c, insns = pre ++ i :: post → i.mnem = .jcc c → Reach r start insns n (i.ip, f) → f = lastCompare pre

/-- from here on, no conditional jump comes before a compare (straight on) -/
def Fresh : List Insn → Prop
  | [] => True
  | i :: is =>
    match i.mnem with
    | .cmp | .test | .jmp | .call | .ret => True
    | .jcc _ => False
    | .other => Fresh is

/-- all jumps within the function go to places where the flags do not matter -/
def FreshTargets (insns : List Insn) : Prop :=
  ∀ j ∈ insns, (j.mnem = .jmp ∨ ∃ c, j.mnem = .jcc c) → ∀ pre i post, insns = pre ++ i :: post → i.ip = j.target → Fresh (i :: post)

/-- a branch out of the function -/
def IsExit (start stop : Nat) (i : Insn) : Prop :=
  (i.mnem = .jmp ∨ i.mnem = .call ∨ ∃ c, i.mnem = .jcc c) ∧ ¬ (start ≤ i.target ∧ i.target < stop)

/-- equal instruction objects have the same target -/
def KeysOk (insns : List Insn) : Prop := ∀ i ∈ insns, ∀ j ∈ insns, i.key = j.key → i.target = j.target

/-- the default case: more than a hundred numbers below 4096 leave to `t` -/
def DefaultTarget (r start stop : Nat) (insns : List Insn) (t : Nat) : Prop :=
  ∃ l : List Nat, l.Nodup ∧ 100 < l.length ∧ ∀ n ∈ l, n < 4096 ∧ LeavesTo r start stop insns n t

/-- the last instruction does not run on -/
def EndsProperly (insns : List Insn) : Prop := ∃ pre l, insns = pre ++ [l] ∧ (l.mnem = .ret ∨ l.mnem = .jmp ∨ l.mnem = .call)

/-- a dispatch function the analysis is made for -/
structure GoodSwitch (r start stop : Nat) (insns : List Insn) : Prop where
  contiguous : Contiguous start stop insns
  supported : Supported r start stop insns
  flags : FlagsTextual r start insns
  keys : KeysOk insns
  ends : EndsProperly insns

/-- sets are iterated in some order -/
structure OrdersOk (x : X86Env) : Prop where
  cands : ∀ l, (x.candOrder l).Perm l
  numbers : ∀ l, (x.numOrder l).Perm l

/-- the dispatch function of the kernel: it is there, large enough, and decodes to the instructions -/
structure Dispatch (x : X86Env) (a : Arch) (e : Elf) (sym : Symbol) (insns : List Insn) : Prop where
  x86 : a.kind = .x86
  noTable : a.tableName = none
  found : dget (a.abi ++ cs!"_sys_call") e.functions = some sym
  large : 0x10 ≤ sym.size
  code : ∃ code, e.readSymbol sym = .ok code ∧ insns = x.decode a.bits32 code sym.realVaddr

end Verif.Spec
