import Verif.Spec.Build
/-! # Specification: options that have to be on (C111) -/
set_option autoImplicit false

namespace Verif.Spec

/-- options some syscall depends on, with the first version they are turned on in, on every architecture -/
def onEverywhere : List (Str × Ver) :=
  [(cs!"ADVISE_SYSCALLS", [3, 18]), (cs!"AIO", [2, 6, 28]), (cs!"BLOCK", [2, 6, 19]), (cs!"BPF_SYSCALL", [3, 18]),
   (cs!"BSD_PROCESS_ACCT", [2, 6, 12]), (cs!"CHECKPOINT_RESTORE", [3, 3]), (cs!"CROSS_MEMORY_ATTACH", [3, 15]),
   (cs!"FANOTIFY", [2, 6, 36]), (cs!"FHANDLE", [2, 6, 39]), (cs!"FUTEX", [2, 6, 12]), (cs!"INOTIFY_USER", [2, 6, 18]),
   (cs!"IO_URING", [5, 1]), (cs!"KCMP", [5, 12]), (cs!"KEYS", [2, 6, 12]), (cs!"MEMBARRIER", [4, 3]),
   (cs!"MEMFD_CREATE", [4, 18]), (cs!"MIGRATION", [2, 6, 16]), (cs!"MODULES", [2, 6, 12]), (cs!"MODULE_UNLOAD", [2, 6, 12]),
   (cs!"NET", [2, 6, 12]), (cs!"NFSD", [2, 6, 12]), (cs!"PCI_SYSCALL", [2, 6, 12]), (cs!"PERF_EVENTS", [2, 6, 12]),
   (cs!"POSIX_MQUEUE", [2, 6, 12]), (cs!"POSIX_TIMERS", [4, 10]), (cs!"RSEQ", [4, 18]), (cs!"SECRETMEM", [5, 14]),
   (cs!"SECURITY", [2, 6, 12]), (cs!"SECURITY_LANDLOCK", [5, 13]), (cs!"SGETMASK_SYSCALL", [3, 16]),
   (cs!"SIGNALFD", [2, 6, 22]), (cs!"SYSCTL_SYSCALL", [2, 6, 12]), (cs!"SYSFS_SYSCALL", [3, 15]), (cs!"SYSVIPC", [2, 6, 12]),
   (cs!"UID16", [2, 6, 12]), (cs!"USELIB", [3, 15]), (cs!"USERFAULTFD", [4, 3])]

/-- the same for options that are not turned on everywhere: architecture, 32-bit kernel or not, first version -/
def onSomewhere : List (Str × Kind × Bool × Ver) :=
  [(cs!"KEXEC", .arm, true, [2, 6, 21]), (cs!"KEXEC", .arm64, false, [4, 8]), (cs!"KEXEC", .mips, true, [2, 6, 20]),
   (cs!"KEXEC", .mips, false, [2, 6, 20]), (cs!"KEXEC", .powerpc, true, [2, 6, 15]), (cs!"KEXEC", .powerpc, false, [2, 6, 15]),
   (cs!"KEXEC", .riscv, true, [4, 8]), (cs!"KEXEC", .riscv, false, [4, 8]), (cs!"KEXEC", .x86, true, [2, 6, 13]),
   (cs!"KEXEC", .x86, false, [2, 6, 13]),
   (cs!"KEXEC_FILE", .arm64, false, [5, 0]), (cs!"KEXEC_FILE", .powerpc, false, [4, 10]),
   (cs!"KEXEC_FILE", .riscv, false, [5, 19]), (cs!"KEXEC_FILE", .x86, false, [3, 17]),
   (cs!"NUMA", .arm64, false, [4, 7]), (cs!"NUMA", .mips, false, [2, 6, 12]), (cs!"NUMA", .powerpc, false, [2, 6, 15]),
   (cs!"NUMA", .riscv, true, [5, 12]), (cs!"NUMA", .riscv, false, [5, 12]), (cs!"NUMA", .x86, true, [2, 6, 12]),
   (cs!"NUMA", .x86, false, [2, 6, 12]),
   (cs!"SECCOMP", .arm, true, [2, 6, 37]), (cs!"SECCOMP", .arm64, false, [3, 19]), (cs!"SECCOMP", .mips, true, [2, 6, 15]),
   (cs!"SECCOMP", .mips, false, [2, 6, 15]), (cs!"SECCOMP", .powerpc, true, [2, 6, 15]),
   (cs!"SECCOMP", .powerpc, false, [2, 6, 15]), (cs!"SECCOMP", .riscv, true, [5, 5]), (cs!"SECCOMP", .riscv, false, [5, 5]),
   (cs!"SECCOMP", .x86, true, [2, 6, 12]), (cs!"SECCOMP", .x86, false, [2, 6, 12]),
   (cs!"PPC_RTAS", .powerpc, true, [2, 6, 15]), (cs!"PPC_RTAS", .powerpc, false, [2, 6, 15]),
   (cs!"PPC_SUBPAGE_PROT", .powerpc, false, [2, 6, 25]), (cs!"PPC_MEM_KEYS", .powerpc, false, [4, 16]),
   (cs!"SPU_FS", .powerpc, false, [2, 6, 16]),
   (cs!"MODIFY_LDT_SYSCALL", .x86, true, [4, 3]), (cs!"MODIFY_LDT_SYSCALL", .x86, false, [4, 3]),
   (cs!"VM86", .x86, true, [2, 6, 16]), (cs!"X86_LEGACY_VM86", .x86, true, [4, 3]),
   (cs!"X86_IOPL_IOPERM", .x86, true, [5, 5]), (cs!"X86_IOPL_IOPERM", .x86, false, [5, 5]),
   (cs!"X86_INTEL_MEMORY_PROTECTION_KEYS", .x86, false, [4, 6]), (cs!"X86_USER_SHADOW_STACK", .x86, false, [6, 6])]

/-- the option is turned on for the architecture (with a 32-bit kernel or not) in version `v` -/
def TurnedOn (k : Kind) (bits32 : Bool) (v : Ver) (opt : Str) : Prop :=
  (∃ since, (opt, since) ∈ onEverywhere ∧ since ≤ v) ∨ ∃ since, (opt, k, bits32, since) ∈ onSomewhere ∧ since ≤ v

/-- options some syscall depends on that are left as they are: the architectures where such syscalls exist turn them on by
default -/
def leftAsTheyAre : List Str :=
  [cs!"CACHESTAT_SYSCALL", cs!"EPOLL", cs!"MMU", cs!"MULTIUSER", cs!"QUOTACTL", cs!"SWAP", cs!"TMPFS"]

/-- what the documentation says about all kernels that are built: debug information and no relocations (README, Limitations);
and about 64-bit ones: support for all ABIs of the architecture (note 1). Architecture, 32-bit kernel or not, option, value,
first version, first version without. -/
def documented : List (Option (Kind × Bool) × Opt × Ver × Ver) :=
  [(none, (cs!"DEBUG_INFO", cs!"y"), [2, 6, 12], versionInf),
   (none, (cs!"DEBUG_INFO_REDUCED", cs!"n"), [2, 6, 36], versionInf),
   (none, (cs!"DEBUG_INFO_DWARF_TOOLCHAIN_DEFAULT", cs!"y"), [5, 12], versionInf),
   (none, (cs!"DEBUG_INFO_NONE", cs!"n"), [5, 18], versionInf),
   (none, (cs!"RELOCATABLE", cs!"n"), [2, 6, 12], versionInf),
   (none, (cs!"FTRACE_SYSCALLS", cs!"y"), [2, 6, 30], versionInf),
   (some (.arm64, false), (cs!"COMPAT", cs!"y"), [3, 7], versionInf),
   (some (.mips, false), (cs!"64BIT", cs!"y"), [2, 6, 12], versionInf),
   (some (.mips, false), (cs!"MIPS32_O32", cs!"y"), [2, 6, 12], versionInf),
   (some (.mips, false), (cs!"MIPS32_N32", cs!"y"), [2, 6, 12], versionInf),
   (some (.powerpc, false), (cs!"COMPAT", cs!"y"), [2, 6, 15], versionInf),
   (some (.powerpc, false), (cs!"SPU_FS", cs!"y"), [2, 6, 16], versionInf),
   (some (.riscv, false), (cs!"COMPAT", cs!"y"), [5, 19], versionInf),
   (some (.x86, false), (cs!"IA32_EMULATION", cs!"y"), [2, 6, 12], versionInf),
   (some (.x86, false), (cs!"X86_X32", cs!"y"), [3, 4], [5, 18]),
   (some (.x86, false), (cs!"X86_X32_ABI", cs!"y"), [5, 18], versionInf),
   (some (.mips, true), (cs!"32BIT", cs!"y"), [2, 6, 12], versionInf),
   (some (.powerpc, true), (cs!"PPC64", cs!"n"), [2, 6, 12], versionInf),
   (some (.riscv, true), (cs!"32BIT", cs!"y"), [4, 15], [5, 1])]

end Verif.Spec
