import Verif.Spec.Record
import Verif.Spec.X86Emu
import Verif.Model.EmuDiag
/-! # What the analysis of the syscall switch cannot deal with, and what is shown then -/
set_option autoImplicit false

namespace Verif.Spec

/-- an instruction that compares, with its first register operand -/
def ComparesReg (i : Insn) (r : Nat) : Prop :=
  (i.mnem = .cmp ∨ i.mnem = .test) ∧ ∃ before after, i.ops = before ++ .reg r :: after ∧ ∀ q, Operand.reg q ∉ before

/-- the register compared first -/
def FirstCompared (insns : List Insn) (r : Nat) : Prop :=
  ∃ pre i post, insns = pre ++ i :: post ∧ ComparesReg i r ∧ ∀ j ∈ pre, ∀ q, ¬ ComparesReg j q

/-- why the analysis cannot go on at instruction `i`, which comes after `pre` in the function from `start` to `stop`, when the
number is in register `r`, and what is shown about it -/
inductive Stops (text : Insn → Str) (func : Str) (start stop r : Nat) (pre : List Insn) (i : Insn) : Str → Prop
  /-- a test, but no je or jne after it -/
  | afterTest (t : Insn) : pre.getLast? = some t → t.mnem = .test → i.mnem ≠ .jcc .e → i.mnem ≠ .jcc .ne →
      Stops text func start stop r pre i (cs!"Unsupported instruction after TEST: 0x" ++ Nat.toDigits 16 i.ip ++ cs!": " ++ text i)
  /-- a test of something other than two registers -/
  | test : i.mnem = .test → (∀ a b rest, i.ops ≠ .reg a :: .reg b :: rest) →
      Stops text func start stop r pre i (cs!"Unsupported TEST instruction 0x" ++ Nat.toDigits 16 i.ip ++ cs!": " ++ text i)
  /-- a comparison of something other than a register and a constant -/
  | cmp : i.mnem = .cmp → (∀ q v rest, i.ops ≠ .reg q :: .imm v :: rest ∧ i.ops ≠ .imm v :: .reg q :: rest) →
      Stops text func start stop r pre i (cs!"Unsupported CMP instruction 0x" ++ Nat.toDigits 16 i.ip ++ cs!": " ++ text i)
  /-- a comparison of another register -/
  | register (q v : Nat) (rest : List Operand) : i.mnem = .cmp → (i.ops = .reg q :: .imm v :: rest ∨ i.ops = .imm v :: .reg q :: rest) →
      q ≠ r →
      Stops text func start stop r pre i (cs!"Unexpected register in CMP instruction 0x" ++ Nat.toDigits 16 i.ip ++ cs!": " ++ text i)
  /-- a condition other than those of unsigned comparisons -/
  | condition : i.mnem = .jcc .other →
      Stops text func start stop r pre i (cs!"Unsupported Jcc instruction 0x" ++ Nat.toDigits 16 i.ip ++ cs!": " ++ text i)
  /-- a conditional jump with no comparison before -/
  | noCompare (c : Cc) : i.mnem = .jcc c → (∀ k ∈ pre, k.mnem ≠ .cmp ∧ k.mnem ≠ .test) →
      Stops text func start stop r pre i (cs!"No previous CMP/TEST instruction for Jcc: 0x" ++ Nat.toDigits 16 i.ip ++ cs!": " ++ text i)
  /-- a call within the function -/
  | itself : i.mnem = .call → start ≤ i.target → i.target < stop →
      Stops text func start stop r pre i (func ++ cs!" calling itself??? " ++ text i)

/-- what does not fit together although every instruction is understood, and what is shown about it -/
inductive Conflict (text : Insn → Str) (r start stop : Nat) (insns : List Insn) : Str → Prop
  /-- a branch out of the function to where no number leads -/
  | unreachable (i : Insn) : i ∈ insns → IsExit start stop i → (∀ n, n < 4096 → ¬ LeavesTo r start stop insns n i.target) →
      Conflict text r start stop insns
        (cs!"Empty set of syscall numbers for 0x" ++ Nat.toDigits 16 i.target ++ cs!" (target of " ++ text i ++ cs!"). Unreachable!?")
  /-- two different branches to default cases -/
  | defaults (i j : Insn) : i ∈ insns → j ∈ insns → IsExit start stop i → IsExit start stop j → i.key ≠ j.key →
      DefaultTarget r start stop insns i.target → DefaultTarget r start stop insns j.target →
      Conflict text r start stop insns cs!"Multiple default switch cases!?"

end Verif.Spec
