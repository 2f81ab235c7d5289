import Verif.Spec.Arch
import Verif.Spec.Utils
/-! Specification for C86: the columns "Build based on" and "Notes" of the `--arch` help. -/
set_option autoImplicit false

namespace Verif.Spec

/-- "Linux <= vX.Y": decided by the first two numbers of the version -/
def UpTo (v : Ver) (x y : Nat) : Prop := v.take 2 ≤ [x, y]

instance (v : Ver) (x y : Nat) : Decidable (UpTo v x y) := inferInstanceAs (Decidable (v.take 2 ≤ [x, y]))

/-- a row of the help: value, column "Build based on", notes -/
structure BuildRow where
  value : Str
  targets : List Str
  notes : List Nat
  deriving DecidableEq

/-- arch/__init__.py:84-107 -/
def buildColumn : List BuildRow :=
  [⟨cs!"arm", [cs!"multi_v7_defconfig"], [2]⟩,
   ⟨cs!"arm-oabi", [cs!"multi_v7_defconfig"], [2, 4]⟩,
   ⟨cs!"arm64", [cs!"defconfig"], []⟩,
   ⟨cs!"arm64-aarch32", [cs!"defconfig"], [1]⟩,
   ⟨cs!"mips", [cs!"defconfig"], []⟩,
   ⟨cs!"mips64", [cs!"ip27_defconfig"], [1]⟩,
   ⟨cs!"mips64-n32", [cs!"ip27_defconfig"], [1]⟩,
   ⟨cs!"mips64-o32", [cs!"ip27_defconfig"], [1]⟩,
   ⟨cs!"powerpc", [cs!"ppc64_defconfig"], []⟩,
   ⟨cs!"powerpc64", [cs!"ppc64_defconfig"], [1]⟩,
   ⟨cs!"powerpc64-32", [cs!"ppc64_defconfig"], [1]⟩,
   ⟨cs!"powerpc64-spu", [cs!"ppc64_defconfig"], [1, 5]⟩,
   ⟨cs!"riscv", [cs!"defconfig", cs!"32-bit.config"], [3, 6]⟩,
   ⟨cs!"riscv64", [cs!"defconfig"], [1, 6]⟩,
   ⟨cs!"riscv64-32", [cs!"defconfig"], [1, 6]⟩,
   ⟨cs!"x86", [cs!"i386_defconfig"], []⟩,
   ⟨cs!"x86-64", [cs!"x86_64_defconfig"], [1]⟩,
   ⟨cs!"x86-64-x32", [cs!"x86_64_defconfig"], [1]⟩,
   ⟨cs!"x86-64-ia32", [cs!"x86_64_defconfig"], [1]⟩]

/-- what the column and the notes [2] and [3] (arch/__init__.py:110-111) promise for a version -/
def BuildRow.promised (r : BuildRow) (v : Ver) : List Str :=
  if 2 ∈ r.notes ∧ UpTo v 3 7 then [cs!"defconfig"]
  else if 3 ∈ r.notes ∧ UpTo v 5 0 then [cs!"defconfig"]
  else if 3 ∈ r.notes ∧ UpTo v 6 7 then [cs!"rv32_defconfig"]
  else r.targets

end Verif.Spec
