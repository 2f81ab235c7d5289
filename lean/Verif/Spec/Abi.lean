import Verif.Spec.Arch
/-! # Specification for C103: table, numbers and registers of each ABI

Transcribed from the Linux sources (names of the tables, bases of the numbers) and from the manual page syscall(2)
(registers), not from the code. -/
set_option autoImplicit false

namespace Verif.Spec

/-- `TableOf v e name t`: for the variant `name` of the `--arch` help, the syscall table of a kernel of version `v` with the symbols
of `e` is `t` (`none`: it has none) -/
inductive TableOf (v : Ver) (e : Elf) : Str → Option Str → Prop where
  | native (name : Str) : name ∈ [cs!"arm", cs!"arm64", cs!"mips", cs!"mips64", cs!"powerpc", cs!"powerpc64", cs!"riscv", cs!"riscv64"] →
      TableOf v e name (some cs!"sys_call_table")
  /-- kernels for both ABIs have two tables, kernels for the old one only have one -/
  | oabiCompat : HasSym e cs!"sys_oabi_call_table" → TableOf v e cs!"arm-oabi" (some cs!"sys_oabi_call_table")
  | oabiOnly : ¬ HasSym e cs!"sys_oabi_call_table" → TableOf v e cs!"arm-oabi" (some cs!"sys_call_table")
  | aarch32 : TableOf v e cs!"arm64-aarch32" (some cs!"compat_sys_call_table")
  | n32 : TableOf v e cs!"mips64-n32" (some cs!"sysn32_call_table")
  | o32 : TableOf v e cs!"mips64-o32" (some cs!"sys32_call_table")
  /-- one table for both ABIs before v5.0 -/
  | ppcCompat : ¬ v < [5, 0] → TableOf v e cs!"powerpc64-32" (some cs!"compat_sys_call_table")
  | ppcShared : v < [5, 0] → TableOf v e cs!"powerpc64-32" (some cs!"sys_call_table")
  | spu : TableOf v e cs!"powerpc64-spu" (some cs!"spu_syscall_table")
  | rv32 : TableOf v e cs!"riscv64-32" (some cs!"compat_sys_call_table")
  /-- x86 kernels have tables before v6.9, afterwards only the main one and only for ftrace -/
  | x86 (name : Str) : name ∈ [cs!"x86", cs!"x86-64"] → v < [6, 9] → TableOf v e name (some cs!"sys_call_table")
  | x86Ftrace (name : Str) : name ∈ [cs!"x86", cs!"x86-64"] → ¬ v < [6, 9] → HasSym e cs!"sys_call_table" →
      TableOf v e name (some cs!"sys_call_table")
  | x86None (name : Str) : name ∈ [cs!"x86", cs!"x86-64"] → ¬ v < [6, 9] → ¬ HasSym e cs!"sys_call_table" → TableOf v e name none
  | ia32 : v < [6, 9] → TableOf v e cs!"x86-64-ia32" (some cs!"ia32_sys_call_table")
  /-- x32 had no table of its own before v5.4 -/
  | x32Shared : v < [5, 4] → TableOf v e cs!"x86-64-x32" (some cs!"sys_call_table")
  | x32 : ¬ v < [5, 4] → v < [6, 9] → TableOf v e cs!"x86-64-x32" (some cs!"x32_sys_call_table")
  | x86Other (name : Str) : name ∈ [cs!"x86-64-ia32", cs!"x86-64-x32"] → ¬ v < [6, 9] → TableOf v e name none

/-- number of the first entry of the table: `__NR_OABI_SYSCALL_BASE`, `__NR_Linux` of MIPS, `__X32_SYSCALL_BIT` -/
def numberBase (name : Str) : Nat :=
  if name = cs!"arm-oabi" then 0x900000
  else if name ∈ [cs!"mips", cs!"mips64-o32"] then 4000
  else if name = cs!"mips64" then 5000
  else if name = cs!"mips64-n32" then 6000
  else if name = cs!"x86-64-x32" then 0x40000000
  else 0

/-- syscall(2): where the number and the arguments go. SPU syscalls are not described there: they are given a block in the local
store. -/
inductive Convention : Str → Str → List Str → Prop where
  | armOabi : Convention cs!"arm-oabi" cs!"swi <NR>" [cs!"r0", cs!"r1", cs!"r2", cs!"r3", cs!"r4", cs!"r5", cs!"r6"]
  | armEabi : Convention cs!"arm" cs!"r7" [cs!"r0", cs!"r1", cs!"r2", cs!"r3", cs!"r4", cs!"r5", cs!"r6"]
  | arm64 : Convention cs!"arm64" cs!"w8" [cs!"x0", cs!"x1", cs!"x2", cs!"x3", cs!"x4", cs!"x5"]
  /-- programs for ARM on a 64-bit kernel -/
  | aarch32 : Convention cs!"arm64-aarch32" cs!"r7" [cs!"r0", cs!"r1", cs!"r2", cs!"r3", cs!"r4", cs!"r5", cs!"r6"]
  | mipsO32 (name : Str) : name ∈ [cs!"mips", cs!"mips64-o32"] →
      Convention name cs!"v0" [cs!"a0", cs!"a1", cs!"a2", cs!"a3", cs!"stack", cs!"stack", cs!"stack", cs!"stack"]
  | mips64 (name : Str) : name ∈ [cs!"mips64", cs!"mips64-n32"] →
      Convention name cs!"v0" [cs!"a0", cs!"a1", cs!"a2", cs!"a3", cs!"a4", cs!"a5"]
  | powerpc (name : Str) : name ∈ [cs!"powerpc", cs!"powerpc64-32"] →
      Convention name cs!"r0" [cs!"r3", cs!"r4", cs!"r5", cs!"r6", cs!"r7", cs!"r8", cs!"r9"]
  | powerpc64 : Convention cs!"powerpc64" cs!"r0" [cs!"r3", cs!"r4", cs!"r5", cs!"r6", cs!"r7", cs!"r8"]
  | riscv (name : Str) : name ∈ [cs!"riscv", cs!"riscv64", cs!"riscv64-32"] →
      Convention name cs!"a7" [cs!"a0", cs!"a1", cs!"a2", cs!"a3", cs!"a4", cs!"a5"]
  | i386 (name : Str) : name ∈ [cs!"x86", cs!"x86-64-ia32"] →
      Convention name cs!"eax" [cs!"ebx", cs!"ecx", cs!"edx", cs!"esi", cs!"edi", cs!"ebp"]
  | x86 (name : Str) : name ∈ [cs!"x86-64", cs!"x86-64-x32"] →
      Convention name cs!"rax" [cs!"rdi", cs!"rsi", cs!"rdx", cs!"r10", cs!"r8", cs!"r9"]

/-- the ABI is not the main one of the kernel: on 64-bit kernels any other than the main one, on 32-bit ARM the old ABI in kernels
for both -/
def IsCompat (row : HelpRow) (e : Elf) : Prop :=
  (row.kernel32 = false ∧ row.abi ≠ mainAbi64 row.kind) ∨ (row.value = cs!"arm-oabi" ∧ HasSym e cs!"sys_oabi_call_table")

end Verif.Spec
