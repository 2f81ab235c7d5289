import Verif.Spec.Arch
import Verif.Spec.Kernel
/-! # Specification: names known from Linux (C24, C35)

Names of architectures and of the function that stands for all system calls not implemented. -/
set_option autoImplicit false

namespace Verif.Spec

/-- numbers of machines in the ELF standard, and the directories under `arch` in the sources of Linux -/
def archDirectories : List (Nat × Str) :=
  [(3, cs!"x86"), (62, cs!"x86"), (40, cs!"arm"), (183, cs!"arm64"), (8, cs!"mips"), (20, cs!"powerpc"), (21, cs!"powerpc"),
   (243, cs!"riscv")]

/-- the name of a function for system calls that are not implemented, of any entry convention; but not the names ftrace and the control
flow checks of compilers make from it -/
def NamedNi (name : Str) : Prop :=
  (cs!"sys_ni_syscall" <:+ name ∨ cs!"compat_ni_syscall" <:+ name) ∧
  ∀ mark ∈ [cs!"_eil_addr_", cs!"__cfi_", cs!"__pfx_"], ¬ mark <+: name

end Verif.Spec
