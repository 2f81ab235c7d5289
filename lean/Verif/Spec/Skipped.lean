import Verif.Spec.X86Emu
/-! # Instructions the analysis of the syscall switch skips -/
set_option autoImplicit false

namespace Verif.Spec

/-- an instruction of the function that is neither understood nor a nop -/
def SkippedIn (isNop : Insn → Bool) (insns : List Insn) (i : Insn) : Prop := i ∈ insns ∧ i.mnem = .other ∧ isNop i = false

/-- how often a skipped instruction occurs in the function -/
def occurrences (isNop : Insn → Bool) (insns : List Insn) (i : Insn) : Nat :=
  (insns.filter fun j => j.mnem = .other ∧ isNop j = false ∧ j.key = i.key).length

/-- two different skipped instructions that occur equally often -/
def EquallyOften (isNop : Insn → Bool) (insns : List Insn) : Prop :=
  ∃ i j, SkippedIn isNop insns i ∧ SkippedIn isNop insns j ∧ i.key ≠ j.key ∧ occurrences isNop insns i = occurrences isNop insns j

end Verif.Spec
