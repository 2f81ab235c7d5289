import Verif.Spec.Described
/-! # Specification of the names of defined syscalls (C124)

The Linux macros `SYSCALL_DEFINEn(name, ...)` and `COMPAT_SYSCALL_DEFINEn(name, ...)` make a function called `name` with a prefix that
depends on the architecture and the version (include/linux/syscalls.h, include/linux/compat.h, arch/*/include/asm/syscall_wrapper.h,
and the assembly stubs of older x86 kernels). -/
set_option autoImplicit false

namespace Verif.Spec

/-- prefixes that say by themselves that a syscall follows -/
def knownWrappers (k : Kind) : List Str :=
  [cs!"ptregs_sys_", cs!"ptregs_compat_sys_", cs!"__se_compat_sys_", cs!"__se_sys_", cs!"compat_sys_"] ++
  match k with
  | .powerpc => [cs!".sys_", cs!".compat_sys_"]
  | .x86 => [cs!"stub32_", cs!"stub_"]
  | _ => []

/-- other prefixes made by the macros -/
def otherWrappers (k : Kind) : List Str :=
  [cs!"sys_", cs!"SyS_", cs!"compat_SyS_"] ++
  match k with
  | .x86 => [cs!"__x64_sys_", cs!"__x64_compat_sys_", cs!"__ia32_sys_", cs!"__ia32_compat_sys_", cs!"__x32_compat_sys_"]
  | .arm64 => [cs!"__arm64_sys_", cs!"__arm64_compat_sys_"]
  | .riscv => [cs!"__riscv_sys_", cs!"__riscv_compat_sys_"]
  | _ => []

/-- a name that is not itself one of another function, of an old version of a syscall or of one for other times -/
structure SourceName (a : Arch) (n : Str) : Prop where
  noSource : NoSourcePrefix a n
  noTime : NoTimeSuffix n
  noWrapper : ∀ p ∈ cs!"__sys_" :: knownWrappers a.kind, ¬ p <+: n
  noArm : a.kind = .arm → ¬ cs!"_wrapper" <:+ '_' :: n
  noDot : n.head? ≠ some '.'

/-- the symbol `W ++ n` can be told from the names of all entries to be that of the syscall `n`: its prefix is known, or at least twenty
entries share it; and no prefix that reaches into `n` is shared by twenty -/
def Recognisable (k : Kind) (names : List Str) (W n : Str) : Prop :=
  (W ∈ knownWrappers k ∧ ∀ q, SharedPrefix names q → ¬ q <+: n) ∨
  (W ∈ otherWrappers k ∧ SharedPrefix names W ∧ ∀ q, SharedPrefix names q → q <+: W ++ n → q.length ≤ W.length)

end Verif.Spec
