import Verif.Spec.Arch
/-! # Specification: variants of kernels (C133) -/
set_option autoImplicit false

namespace Verif.Spec

/-- a row of the `--arch` help with this class, ABI and width of the kernel -/
def InHelp (k : Kind) (abi : Str) (b : Bool) : Prop := ∃ row ∈ helpTable, row.kind = k ∧ row.abi = abi ∧ row.kernel32 = b

instance (k : Kind) (abi : Str) (b : Bool) : Decidable (InHelp k abi b) := inferInstanceAs (Decidable (∃ row ∈ helpTable, _))

/-- 64-bit ABIs of 32-bit kernels, which do not exist -/
def oddVariants : List (Kind × Str × Bool) :=
  [(.powerpc, cs!"ppc64", true), (.powerpc, cs!"spu", true), (.riscv, cs!"rv64", true)]

end Verif.Spec
