import Verif.Model.Arch
/-! # Specifications for architectures (C23-C28, C38-C40)

Tables below are transcribed from the documentation (`SUPPORTED_ARCHS_HELP` in arch/__init__.py:79-118, the
comments of the classes) and from the ELF standard, not from the code paths they are compared with. -/
set_option autoImplicit false

namespace Verif.Spec

/-! ## C23 -/

/-- prefixes that are part of the source name but not of the syscall name, per architecture (`oabi` only) -/
def sourcePrefixes (k : Kind) (abi : Str) : List Str :=
  match k with
  | .arm => if abi = cs!"oabi" then [cs!"oabi_", cs!"arm_"] else [cs!"arm_"]
  | .arm64 => [cs!"aarch32_", cs!"arm64_"]
  | .mips => [cs!"sysm_", cs!"mips_", cs!"mipsmt_sys_"]
  | .powerpc => [cs!"ppc64_", cs!"ppc32_", cs!"ppc_"]
  | .riscv => []
  | .x86 => [cs!"ia32_", cs!"x86_", cs!"x32_"]

/-- none of the prefixes dealt with by normalisation -/
def NoSourcePrefix (a : Arch) (n : Str) : Prop :=
  ∀ p ∈ [cs!"32_", cs!"sys32_", cs!"old_"] ++ sourcePrefixes a.kind a.abi, ¬ p <+: n

/-- no Y2038 suffix -/
def NoTimeSuffix (n : Str) : Prop := ¬ cs!"time32" <:+ n ∧ ¬ cs!"time64" <:+ n

/-! ## C24-C26 -/

/-- e_machine values of the supported architectures (ELF specification: EM_386 3, EM_MIPS 8, EM_PPC 20, EM_PPC64 21,
EM_ARM 40, EM_X86_64 62, EM_AARCH64 183, EM_RISCV 243) and the ELF class they come with (`none`: either) -/
def machineTable : List (Nat × Kind × Option Bool) :=
  [(3, .x86, some true), (62, .x86, some false), (8, .mips, none), (20, .powerpc, some true),
   (21, .powerpc, some false), (40, .arm, some true), (183, .arm64, some false), (243, .riscv, none)]

/-- the ELF is for an architecture of class `k`, with the ELF class that machine requires -/
def IsFor (k : Kind) (e : Elf) : Prop :=
  ∃ m b, (m, k, b) ∈ machineTable ∧ e.machine = m ∧ (b = none ∨ b = some e.bits32)

/-- is there a symbol of this name -/
def HasSym (e : Elf) (n : Str) : Prop := ∃ s, (n, s) ∈ e.symbols

/-- ABIs a kernel of this class supports, as witnessed by its symbols -/
def AbiPresent (k : Kind) (e : Elf) (abi : Str) : Prop :=
  match k with
  | .arm =>
    if e.eflags &&& 0xff000000 = 0 then
      (abi = cs!"eabi" ∧ HasSym e cs!"sys_oabi_call_table") ∨ abi = cs!"oabi"
    else abi = cs!"eabi" ∨ (abi = cs!"oabi" ∧ HasSym e cs!"sys_oabi_call_table")
  | .arm64 => abi = cs!"aarch64" ∨ (abi = cs!"aarch32" ∧ HasSym e cs!"compat_sys_call_table")
  | .mips =>
    if e.bits32 then abi = cs!"o32"
    else abi = cs!"n64" ∨ (abi = cs!"o32" ∧ HasSym e cs!"sys32_call_table")
      ∨ (abi = cs!"n32" ∧ HasSym e cs!"sysn32_call_table")
  | .powerpc =>
    if e.bits32 then abi = cs!"ppc32"
    else abi = cs!"ppc64"
      ∨ (abi = cs!"ppc32" ∧ (HasSym e cs!"compat_sys_call_table" ∨ HasSym e cs!"compat_sys_execve"
          ∨ HasSym e cs!".compat_sys_execve"))
      ∨ (abi = cs!"spu" ∧ HasSym e cs!"spu_syscall_table")
  | .riscv =>
    if e.bits32 then abi = cs!"rv32"
    else abi = cs!"rv64" ∨ (abi = cs!"rv32" ∧ HasSym e cs!"compat_sys_call_table")
  | .x86 =>
    if e.bits32 then abi = cs!"ia32"
    else abi = cs!"x64"
      ∨ (abi = cs!"ia32" ∧ (HasSym e cs!"ia32_sys_call_table" ∨ HasSym e cs!"ia32_sys_call"))
      ∨ (abi = cs!"x32" ∧ (HasSym e cs!"x32_sys_call_table" ∨ HasSym e cs!"x32_sys_call"
          ∨ ∃ n, HasSym e n ∧ cs!"x32_compat_sys" <:+: n))

/-- oldest kernel the class accepts for an ABI (Linux history, quoted in the assertion messages) -/
def minVersion (k : Kind) (abi : Str) (bits32 : Bool) : Ver :=
  match k with
  | .arm | .mips => []
  | .arm64 => [3, 7]
  | .powerpc => if bits32 then [2, 6, 31] else if abi = cs!"spu" then [2, 6, 16] else [2, 6, 15]
  | .riscv => if abi = cs!"rv32" ∧ bits32 = false then [5, 19] else [4, 15]
  | .x86 => [2, 6, 24]

/-! ## C27 -/

/-- one row of the `--arch` help -/
structure HelpRow where
  value : Str
  aliases : List Str
  kind : Kind
  /-- kernel is 32-bit -/
  kernel32 : Bool
  /-- syscall ABI is 32-bit -/
  abi32 : Bool
  abi : Str

/-- arch/__init__.py:84-107, the columns Value, Aliases, Arch, Kernel, Syscall ABI (n32, x32 and "SPU" are
listed as 64-bit ABIs) -/
def helpTable : List HelpRow :=
  [⟨cs!"arm", [cs!"arm-eabi", cs!"eabi"], .arm, true, true, cs!"eabi"⟩,
   ⟨cs!"arm-oabi", [cs!"oabi"], .arm, true, true, cs!"oabi"⟩,
   ⟨cs!"arm64", [cs!"aarch64"], .arm64, false, false, cs!"aarch64"⟩,
   ⟨cs!"arm64-aarch32", [cs!"aarch32"], .arm64, false, true, cs!"aarch32"⟩,
   ⟨cs!"mips", [cs!"mips32", cs!"o32"], .mips, true, true, cs!"o32"⟩,
   ⟨cs!"mips64", [cs!"n64"], .mips, false, false, cs!"n64"⟩,
   ⟨cs!"mips64-n32", [cs!"n32"], .mips, false, false, cs!"n32"⟩,
   ⟨cs!"mips64-o32", [cs!"o32-64"], .mips, false, true, cs!"o32"⟩,
   ⟨cs!"powerpc", [cs!"ppc", cs!"ppc32"], .powerpc, true, true, cs!"ppc32"⟩,
   ⟨cs!"powerpc64", [cs!"ppc64"], .powerpc, false, false, cs!"ppc64"⟩,
   ⟨cs!"powerpc64-32", [cs!"ppc64-32"], .powerpc, false, true, cs!"ppc32"⟩,
   ⟨cs!"powerpc64-spu", [cs!"ppc64-spu", cs!"spu"], .powerpc, false, false, cs!"spu"⟩,
   ⟨cs!"riscv", [cs!"riscv32", cs!"rv32"], .riscv, true, true, cs!"rv32"⟩,
   ⟨cs!"riscv64", [cs!"rv64"], .riscv, false, false, cs!"rv64"⟩,
   ⟨cs!"riscv64-32", [cs!"rv64-32"], .riscv, false, true, cs!"rv32"⟩,
   ⟨cs!"x86", [cs!"i386", cs!"ia32"], .x86, true, true, cs!"ia32"⟩,
   ⟨cs!"x86-64", [cs!"x64"], .x86, false, false, cs!"x64"⟩,
   ⟨cs!"x86-64-x32", [cs!"x32"], .x86, false, false, cs!"x32"⟩,
   ⟨cs!"x86-64-ia32", [cs!"ia32-64"], .x86, false, true, cs!"ia32"⟩]

/-- the main ABI of a 64-bit kernel; any other one is a compat ABI -/
def mainAbi64 : Kind → Str
  | .arm => []
  | .arm64 => cs!"aarch64"
  | .mips => cs!"n64"
  | .powerpc => cs!"ppc64"
  | .riscv => cs!"rv64"
  | .x86 => cs!"x64"

/-! ## C28 -/

/-- classes that separate compat symbols by the word "compat" in the name -/
def usesCompatWord : Kind → Bool
  | .arm | .arm64 | .mips | .riscv => true
  | .powerpc | .x86 => false

/-! ## C38 -/

/-- Linux arch/x86/entry/syscalls/syscall_64.tbl: the numbers below 512 whose ABI column is `64` (not `common`) in
kernels before v5.4, which x32 programs cannot use -/
def only64 : List (Nat × String) :=
  [(13, "rt_sigaction"), (15, "rt_sigreturn"), (16, "ioctl"), (19, "readv"), (20, "writev"), (45, "recvfrom"),
   (46, "sendmsg"), (47, "recvmsg"), (54, "setsockopt"), (55, "getsockopt"), (59, "execve"), (101, "ptrace"),
   (127, "rt_sigpending"), (128, "rt_sigtimedwait"), (129, "rt_sigqueueinfo"), (131, "sigaltstack"), (134, "uselib"),
   (156, "_sysctl"), (174, "create_module"), (177, "get_kernel_syms"), (178, "query_module"), (180, "nfsservctl"),
   (205, "set_thread_area"), (206, "io_setup"), (209, "io_submit"), (211, "get_thread_area"), (214, "epoll_ctl_old"),
   (215, "epoll_wait_old"), (222, "timer_create"), (236, "vserver"), (244, "mq_notify"), (246, "kexec_load"),
   (247, "waitid"), (273, "set_robust_list"), (274, "get_robust_list"), (278, "vmsplice"), (279, "move_pages"),
   (295, "preadv"), (296, "pwritev"), (297, "rt_tgsigqueueinfo"), (299, "recvmmsg"), (307, "sendmmsg"),
   (310, "process_vm_readv"), (311, "process_vm_writev"), (322, "execveat"), (327, "preadv2"), (328, "pwritev2")]

/-! ## C40 -/

/-- Linux arch/arm/include/uapi/asm/unistd.h: offset from `__ARM_NR_BASE`, name and parameters of the private syscalls, the last one
since v4.15 -/
def armPrivate : List (Nat × Str × List Str) :=
  [(1, cs!"breakpoint", []), (2, cs!"cacheflush", [cs!"unsigned long start", cs!"unsigned long end", cs!"int flags"]),
   (3, cs!"usr26", []), (4, cs!"usr32", []), (5, cs!"set_tls", [cs!"unsigned long val"]), (6, cs!"get_tls", [])]

/-- the instruction sequence in powerpc.py:291-296: `cmpdi r0,0x1ebe` (the first one of the function), a `beq`
right after it, at its target `mfsrr1 r12`, then in this order `xori r12,r12,1`, `mtsrr1 r12`, `rfid` -/
def SwitchEndianSeq (ws : List Nat) : Prop :=
  ∃ i beq j k l,
    ws[i]? = some 0x2c201ebe ∧ (∀ m < i, ws[m]? ≠ some 0x2c201ebe) ∧
    ws[i + 1]? = some beq ∧ beq / 2 ^ 16 ∈ [0x41c2, 0x41e2, 0x4182, 0x41a2] ∧
    ws[i + 1 + beq % 2 ^ 16 / 4]? = some 0x7d9b02a6 ∧
    i + 1 + beq % 2 ^ 16 / 4 < j ∧ ws[j]? = some 0x698c0001 ∧
    j < k ∧ ws[k]? = some 0x7d9b03a6 ∧
    k < l ∧ ws[l]? = some 0x4c000024

/-- `stop` is the address of the first symbol above `va`; `va + 0x80` if there is none -/
def NextAddr (e : Elf) (va stop : Nat) : Prop :=
  (va < stop ∧ (∃ s ∈ e.syms, s.vaddr = stop) ∧ ∀ s ∈ e.syms, va < s.vaddr → stop ≤ s.vaddr) ∨
  ((∀ s ∈ e.syms, s.vaddr ≤ va) ∧ stop = va + 0x80)

/-- `ws` are the 32-bit words in the file from the address of `sym` to the next symbol (or the end of the file) -/
def WordsOf (e : Elf) (sym : Symbol) (ws : List Nat) : Prop :=
  ∃ off stop, e.vaddrToFileOffset sym.vaddr = .ok off ∧ NextAddr e sym.vaddr stop ∧
    (readAt e.data off (stop - sym.vaddr)).length = 4 * ws.length ∧
    ∀ i < ws.length, ws[i]? = some (uintOf e.bigEndian (readAt e.data (off + 4 * i) 4))

end Verif.Spec
