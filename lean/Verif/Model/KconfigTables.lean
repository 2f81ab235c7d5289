import Verif.Model.Utils
/-! # Kconfig tables of systrack

Generated by tools/gen_tables.py from the text of /repo/src/systrack/kconfig_options.py and
/repo/src/systrack/arch/*.py. One entry per line of the source, in source order. -/
set_option autoImplicit false

namespace Verif

/-- kconfig_options.py:23 `VERSION_ZERO` -/
def versionZero : Ver := [2, 6, 12]

/-- kconfig_options.py:24 `VERSION_INF` -/
def versionInf : Ver := [9999999999]

/-- kconfig_options.py:57-68 `KCONFIG_DEBUGGING` -/
def kconfigDebuggingTable : List (Ver × Ver × List Str) :=
  [(versionZero, [3, 8], [cs!"EXPERIMENTAL=y"]),
   (versionZero, versionInf, [cs!"DEBUG_KERNEL=y", cs!"DEBUG_INFO=y"]),
   (versionZero, versionInf, [cs!"RELOCATABLE=n", cs!"RANDOMIZE_BASE=n"]),
   ([2, 6, 30], versionInf, [cs!"FTRACE_SYSCALLS=y"]),
   ([2, 6, 31], versionInf, [cs!"FTRACE=y"]),
   ([2, 6, 36], versionInf, [cs!"DEBUG_INFO_REDUCED=n"]),
   ([2, 6, 38], versionInf, [cs!"EXPERT=y"]),
   ([5, 12], versionInf, [cs!"DEBUG_INFO_DWARF_TOOLCHAIN_DEFAULT=y"]),
   ([5, 18], versionInf, [cs!"DEBUG_INFO_NONE=n"])]

/-- kconfig_options.py:75-84 `KCONFIG_COMPATIBILITY` -/
def kconfigCompatibilityTable : List (Ver × Ver × List Str) :=
  [([2, 6, 32], versionInf, [cs!"WLAN=n", cs!"NETDEVICES=n"]),
   ([2, 6, 28], versionInf, [cs!"WIRELESS=n"]),
   ([3, 7], versionInf, [cs!"MODULE_SIG=n"]),
   ([3, 13], versionInf, [cs!"SYSTEM_TRUSTED_KEYRING=n"]),
   ([4, 6], versionInf, [cs!"STACK_VALIDATION=n"]),
   ([4, 14], [4, 15], [cs!"GUESS_UNWINDER=y", cs!"ORC_UNWINDER=n", cs!"FRAME_POINTER_UNWINDER=n"]),
   ([4, 15], versionInf, [cs!"UNWINDER_GUESS=y", cs!"UNWINDER_ORC=n", cs!"UNWINDER_FRAME_POINTER=n"])]

/-- kconfig_options.py:105-164 `KCONFIG_MORE_SYSCALLS` -/
def kconfigMoreSyscallsTable : List (Ver × Ver × Str × List Str) :=
  [([3, 18], versionInf, cs!"ADVISE_SYSCALLS=y", []),
   ([2, 6, 28], versionInf, cs!"AIO=y", []),
   ([2, 6, 19], versionInf, cs!"BLOCK=y", [cs!"EXPERT=y"]),
   ([3, 18], versionInf, cs!"BPF_SYSCALL=y", []),
   (versionZero, [4, 1], cs!"BSD_PROCESS_ACCT=y", []),
   ([4, 1], versionInf, cs!"BSD_PROCESS_ACCT=y", [cs!"MULTIUSER=y"]),
   ([3, 3], versionInf, cs!"CHECKPOINT_RESTORE=y", []),
   ([4, 18], versionInf, cs!"COMPAT_32BIT_TIME=y", []),
   ([3, 15], versionInf, cs!"CROSS_MEMORY_ATTACH=y", [cs!"MMU=y"]),
   (versionZero, versionInf, cs!"CRYPTO_SHA256=y", []),
   ([2, 6, 36], versionInf, cs!"FANOTIFY=y", []),
   ([2, 6, 39], versionInf, cs!"FHANDLE=y", []),
   (versionZero, versionInf, cs!"FUTEX=y", []),
   (versionZero, versionInf, cs!"INET=y", []),
   ([2, 6, 13], [2, 6, 29], cs!"INOTIFY=y", []),
   ([2, 6, 18], versionInf, cs!"INOTIFY_USER=y", []),
   ([5, 1], versionInf, cs!"IO_URING=y", [cs!"EXPERT=y"]),
   ([5, 12], versionInf, cs!"KCMP=y", [cs!"EXPERT=y"]),
   (versionZero, versionInf, cs!"KEYS=y", []),
   ([4, 3], versionInf, cs!"MEMBARRIER=y", []),
   ([4, 18], [6, 6], cs!"MEMFD_CREATE=y", []),
   ([6, 6], versionInf, cs!"MEMFD_CREATE=y", [cs!"EXPERT=y"]),
   ([2, 6, 16], versionInf, cs!"MIGRATION=y", [cs!"MMU=y"]),
   (versionZero, versionInf, cs!"MODULE_UNLOAD=y", []),
   (versionZero, versionInf, cs!"MODULES=y", []),
   (versionZero, versionInf, cs!"NET=y", []),
   (versionZero, [2, 6, 29], cs!"NFSD=y", [cs!"INET=y"]),
   ([2, 6, 29], [3, 1], cs!"NFSD=y", [cs!"INET=y", cs!"FILE_LOCKING=y", cs!"FSNOTIFY=y"]),
   ([2, 6, 32], versionInf, cs!"PROFILING=y", []),
   (versionZero, versionInf, cs!"PERF_EVENTS=y", [cs!"HAVE_PERF_EVENTS=y"]),
   (versionZero, versionInf, cs!"PCI_SYSCALL=y", [cs!"PCI=y"]),
   (versionZero, versionInf, cs!"POSIX_MQUEUE=y", [cs!"NET=y"]),
   ([4, 10], versionInf, cs!"POSIX_TIMERS=y", [cs!"EXPERT=y"]),
   ([2, 6, 30], versionInf, cs!"QUOTA=y", []),
   ([4, 18], versionInf, cs!"RSEQ=y", [cs!"HAVE_RSEQ=y"]),
   ([5, 10], versionInf, cs!"SECCOMP=y", [cs!"HAVE_ARCH_SECCOMP=y"]),
   ([5, 14], versionInf, cs!"SECRETMEM=y", [cs!"ARCH_HAS_SET_DIRECT_MAP=y"]),
   (versionZero, [4, 1], cs!"SECURITY=y", [cs!"SYSFS=y"]),
   ([4, 1], versionInf, cs!"SECURITY=y", [cs!"SYSFS=y", cs!"MULTIUSER=y"]),
   ([5, 13], [6, 5], cs!"SECURITY_LANDLOCK=y", [cs!"SECURITY=y", cs!"ARCH_EPHEMERAL_INODES=n"]),
   ([6, 5], versionInf, cs!"SECURITY_LANDLOCK=y", [cs!"SECURITY=y"]),
   ([3, 16], versionInf, cs!"SGETMASK_SYSCALL=y", []),
   ([2, 6, 22], versionInf, cs!"SIGNALFD=y", [cs!"EXPERT=y"]),
   (versionZero, [5, 5], cs!"SYSCTL_SYSCALL=y", [cs!"PROC_SYSCTL=y"]),
   ([3, 15], versionInf, cs!"SYSFS_SYSCALL=y", []),
   (versionZero, versionInf, cs!"SYSVIPC=y", []),
   (versionZero, [2, 6, 16], cs!"UID16=y", []),
   ([2, 6, 16], [4, 1], cs!"UID16=y", [cs!"EXPERT=y", cs!"HAVE_UID16=y"]),
   ([4, 1], versionInf, cs!"UID16=y", [cs!"EXPERT=y", cs!"HAVE_UID16=y", cs!"MULTIUSER=y"]),
   ([4, 3], versionInf, cs!"USERFAULTFD=y", [cs!"MMU=y"]),
   ([3, 15], versionInf, cs!"USELIB=y", [])]

/-- kconfig_options.py:185-373 `KCONFIG_SYSCALL_DEPS` -/
def kconfigSyscallDepsTable : List (Ver × Ver × Str × Str) :=
  [(versionZero, versionInf, cs!"fadvise64", cs!"ADVISE_SYSCALLS"),
   (versionZero, versionInf, cs!"fadvise64_64", cs!"ADVISE_SYSCALLS"),
   (versionZero, versionInf, cs!"madvise", cs!"ADVISE_SYSCALLS"),
   (versionZero, versionInf, cs!"process_madvise", cs!"ADVISE_SYSCALLS"),
   (versionZero, versionInf, cs!"io_setup", cs!"AIO"),
   (versionZero, versionInf, cs!"io_destroy", cs!"AIO"),
   (versionZero, versionInf, cs!"io_getevents", cs!"AIO"),
   (versionZero, versionInf, cs!"io_submit", cs!"AIO"),
   (versionZero, versionInf, cs!"io_cancel", cs!"AIO"),
   (versionZero, versionInf, cs!"io_pgetevents", cs!"AIO"),
   (versionZero, versionInf, cs!"ioprio_get", cs!"BLOCK"),
   (versionZero, versionInf, cs!"ioprio_set", cs!"BLOCK"),
   (versionZero, versionInf, cs!"bpf", cs!"BPF_SYSCALL"),
   (versionZero, versionInf, cs!"acct", cs!"BSD_PROCESS_ACCT"),
   ([6, 5], versionInf, cs!"cachestat", cs!"CACHESTAT_SYSCALL"),
   (versionZero, [5, 12], cs!"kcmp", cs!"CHECKPOINT_RESTORE"),
   (versionZero, versionInf, cs!"process_vm_readv", cs!"CROSS_MEMORY_ATTACH"),
   (versionZero, versionInf, cs!"process_vm_writev", cs!"CROSS_MEMORY_ATTACH"),
   (versionZero, versionInf, cs!"epoll_create", cs!"EPOLL"),
   (versionZero, versionInf, cs!"epoll_create1", cs!"EPOLL"),
   (versionZero, versionInf, cs!"epoll_ctl", cs!"EPOLL"),
   (versionZero, versionInf, cs!"epoll_pwait", cs!"EPOLL"),
   (versionZero, versionInf, cs!"epoll_pwait2", cs!"EPOLL"),
   (versionZero, versionInf, cs!"epoll_wait", cs!"EPOLL"),
   (versionZero, versionInf, cs!"name_to_handle_at", cs!"FHANDLE"),
   (versionZero, versionInf, cs!"open_by_handle_at", cs!"FHANDLE"),
   (versionZero, versionInf, cs!"fanotify_init", cs!"FANOTIFY"),
   (versionZero, versionInf, cs!"fanotify_mark", cs!"FANOTIFY"),
   (versionZero, versionInf, cs!"fork", cs!"MMU"),
   (versionZero, versionInf, cs!"futex", cs!"FUTEX"),
   (versionZero, versionInf, cs!"futex_wait", cs!"FUTEX"),
   (versionZero, versionInf, cs!"futex_waitv", cs!"FUTEX"),
   (versionZero, versionInf, cs!"futex_wake", cs!"FUTEX"),
   (versionZero, versionInf, cs!"futex_requeue", cs!"FUTEX"),
   (versionZero, versionInf, cs!"get_robust_list", cs!"FUTEX"),
   (versionZero, versionInf, cs!"set_robust_list", cs!"FUTEX"),
   (versionZero, versionInf, cs!"inotify_add_watch", cs!"INOTIFY_USER"),
   (versionZero, versionInf, cs!"inotify_init", cs!"INOTIFY_USER"),
   (versionZero, versionInf, cs!"inotify_init1", cs!"INOTIFY_USER"),
   (versionZero, versionInf, cs!"inotify_rm_watch", cs!"INOTIFY_USER"),
   (versionZero, versionInf, cs!"io_uring_enter", cs!"IO_URING"),
   (versionZero, versionInf, cs!"io_uring_setup", cs!"IO_URING"),
   (versionZero, versionInf, cs!"io_uring_register", cs!"IO_URING"),
   ([5, 12], versionInf, cs!"kcmp", cs!"KCMP"),
   (versionZero, versionInf, cs!"kexec_load", cs!"KEXEC"),
   (versionZero, versionInf, cs!"kexec_file_load", cs!"KEXEC_FILE"),
   (versionZero, versionInf, cs!"add_key", cs!"KEYS"),
   (versionZero, versionInf, cs!"keyctl", cs!"KEYS"),
   (versionZero, versionInf, cs!"request_key", cs!"KEYS"),
   (versionZero, versionInf, cs!"membarrier", cs!"MEMBARRIER"),
   ([4, 18], versionInf, cs!"memfd_create", cs!"MEMFD_CREATE"),
   (versionZero, versionInf, cs!"mincore", cs!"MMU"),
   (versionZero, versionInf, cs!"mlock", cs!"MMU"),
   (versionZero, versionInf, cs!"mlock2", cs!"MMU"),
   (versionZero, versionInf, cs!"mlockall", cs!"MMU"),
   (versionZero, versionInf, cs!"mprotect", cs!"MMU"),
   (versionZero, versionInf, cs!"msync", cs!"MMU"),
   (versionZero, versionInf, cs!"munlock", cs!"MMU"),
   (versionZero, versionInf, cs!"munlockall", cs!"MMU"),
   (versionZero, versionInf, cs!"remap_file_pages", cs!"MMU"),
   (versionZero, versionInf, cs!"process_mrelease", cs!"MMU"),
   ([4, 3], versionInf, cs!"modify_ldt", cs!"MODIFY_LDT_SYSCALL"),
   (versionZero, versionInf, cs!"delete_module", cs!"MODULE_UNLOAD"),
   (versionZero, versionInf, cs!"init_module", cs!"MODULES"),
   (versionZero, versionInf, cs!"finit_module", cs!"MODULES"),
   ([4, 1], versionInf, cs!"capget", cs!"MULTIUSER"),
   ([4, 1], versionInf, cs!"capset", cs!"MULTIUSER"),
   ([4, 1], versionInf, cs!"setuid", cs!"MULTIUSER"),
   ([4, 1], versionInf, cs!"setgid", cs!"MULTIUSER"),
   ([4, 1], versionInf, cs!"setreuid", cs!"MULTIUSER"),
   ([4, 1], versionInf, cs!"setregid", cs!"MULTIUSER"),
   ([4, 1], versionInf, cs!"getresuid", cs!"MULTIUSER"),
   ([4, 1], versionInf, cs!"setresuid", cs!"MULTIUSER"),
   ([4, 1], versionInf, cs!"getresgid", cs!"MULTIUSER"),
   ([4, 1], versionInf, cs!"setresgid", cs!"MULTIUSER"),
   ([4, 1], versionInf, cs!"setfsuid", cs!"MULTIUSER"),
   ([4, 1], versionInf, cs!"setfsgid", cs!"MULTIUSER"),
   ([4, 1], versionInf, cs!"getgroups", cs!"MULTIUSER"),
   ([4, 1], versionInf, cs!"setgroups", cs!"MULTIUSER"),
   (versionZero, versionInf, cs!"accept", cs!"NET"),
   (versionZero, versionInf, cs!"accept4", cs!"NET"),
   (versionZero, versionInf, cs!"bind", cs!"NET"),
   (versionZero, versionInf, cs!"connect", cs!"NET"),
   (versionZero, versionInf, cs!"listen", cs!"NET"),
   (versionZero, versionInf, cs!"getpeername", cs!"NET"),
   (versionZero, versionInf, cs!"getsockname", cs!"NET"),
   (versionZero, versionInf, cs!"getsockopt", cs!"NET"),
   (versionZero, versionInf, cs!"recv", cs!"NET"),
   (versionZero, versionInf, cs!"recvfrom", cs!"NET"),
   (versionZero, versionInf, cs!"recvmsg", cs!"NET"),
   (versionZero, versionInf, cs!"recvmmsg", cs!"NET"),
   (versionZero, versionInf, cs!"send", cs!"NET"),
   (versionZero, versionInf, cs!"sendmmsg", cs!"NET"),
   (versionZero, versionInf, cs!"sendmsg", cs!"NET"),
   (versionZero, versionInf, cs!"sendto", cs!"NET"),
   (versionZero, versionInf, cs!"setsockopt", cs!"NET"),
   (versionZero, versionInf, cs!"shutdown", cs!"NET"),
   (versionZero, versionInf, cs!"socket", cs!"NET"),
   (versionZero, versionInf, cs!"socketcall", cs!"NET"),
   (versionZero, versionInf, cs!"socketpair", cs!"NET"),
   (versionZero, [3, 1], cs!"nfsservctl", cs!"NFSD"),
   (versionZero, versionInf, cs!"mbind", cs!"NUMA"),
   (versionZero, versionInf, cs!"migrate_pages", cs!"MIGRATION"),
   (versionZero, versionInf, cs!"move_pages", cs!"MIGRATION"),
   (versionZero, versionInf, cs!"get_mempolicy", cs!"NUMA"),
   (versionZero, versionInf, cs!"set_mempolicy", cs!"NUMA"),
   (versionZero, versionInf, cs!"set_mempolicy_home_node", cs!"NUMA"),
   (versionZero, versionInf, cs!"pciconfig_read", cs!"PCI_SYSCALL"),
   (versionZero, versionInf, cs!"pciconfig_write", cs!"PCI_SYSCALL"),
   (versionZero, versionInf, cs!"perf_event_open", cs!"PERF_EVENTS"),
   (versionZero, versionInf, cs!"mq_notify", cs!"POSIX_MQUEUE"),
   (versionZero, versionInf, cs!"mq_open", cs!"POSIX_MQUEUE"),
   (versionZero, versionInf, cs!"mq_timedreceive", cs!"POSIX_MQUEUE"),
   (versionZero, versionInf, cs!"mq_timedsend", cs!"POSIX_MQUEUE"),
   (versionZero, versionInf, cs!"mq_unlink", cs!"POSIX_MQUEUE"),
   (versionZero, versionInf, cs!"mq_getsetattr", cs!"POSIX_MQUEUE"),
   (versionZero, versionInf, cs!"timer_create", cs!"POSIX_TIMERS"),
   (versionZero, versionInf, cs!"timer_delete", cs!"POSIX_TIMERS"),
   (versionZero, versionInf, cs!"timer_getoverrun", cs!"POSIX_TIMERS"),
   (versionZero, versionInf, cs!"timer_gettime", cs!"POSIX_TIMERS"),
   (versionZero, versionInf, cs!"timer_settime", cs!"POSIX_TIMERS"),
   (versionZero, versionInf, cs!"rtas", cs!"PPC_RTAS"),
   (versionZero, versionInf, cs!"subpage_prot", cs!"PPC_SUBPAGE_PROT"),
   (versionZero, versionInf, cs!"quotactl", cs!"QUOTACTL"),
   (versionZero, versionInf, cs!"quotactl_fd", cs!"QUOTACTL"),
   (versionZero, versionInf, cs!"rseq", cs!"RSEQ"),
   (versionZero, versionInf, cs!"lsm_get_self_attr", cs!"SECURITY"),
   (versionZero, versionInf, cs!"lsm_list_modules", cs!"SECURITY"),
   (versionZero, versionInf, cs!"lsm_set_self_attr", cs!"SECURITY"),
   (versionZero, versionInf, cs!"landlock_create_ruleset", cs!"SECURITY_LANDLOCK"),
   (versionZero, versionInf, cs!"landlock_add_rule", cs!"SECURITY_LANDLOCK"),
   (versionZero, versionInf, cs!"landlock_restrict_self", cs!"SECURITY_LANDLOCK"),
   (versionZero, versionInf, cs!"seccomp", cs!"SECCOMP"),
   (versionZero, versionInf, cs!"memfd_secret", cs!"SECRETMEM"),
   (versionZero, versionInf, cs!"sgetmask", cs!"SGETMASK_SYSCALL"),
   (versionZero, versionInf, cs!"ssetmask", cs!"SGETMASK_SYSCALL"),
   (versionZero, versionInf, cs!"signalfd", cs!"SIGNALFD"),
   (versionZero, versionInf, cs!"signalfd4", cs!"SIGNALFD"),
   (versionZero, versionInf, cs!"spu_create", cs!"SPU_FS"),
   (versionZero, versionInf, cs!"spu_run", cs!"SPU_FS"),
   (versionZero, versionInf, cs!"swapon", cs!"SWAP"),
   (versionZero, versionInf, cs!"swapoff", cs!"SWAP"),
   (versionZero, [5, 5], cs!"sysctl", cs!"SYSCTL_SYSCALL"),
   (versionZero, versionInf, cs!"sysfs", cs!"SYSFS_SYSCALL"),
   (versionZero, versionInf, cs!"ipc", cs!"SYSVIPC"),
   (versionZero, versionInf, cs!"msgctl", cs!"SYSVIPC"),
   (versionZero, versionInf, cs!"msgget", cs!"SYSVIPC"),
   (versionZero, versionInf, cs!"msgrcv", cs!"SYSVIPC"),
   (versionZero, versionInf, cs!"msgsnd", cs!"SYSVIPC"),
   (versionZero, versionInf, cs!"semctl", cs!"SYSVIPC"),
   (versionZero, versionInf, cs!"semget", cs!"SYSVIPC"),
   (versionZero, versionInf, cs!"semop", cs!"SYSVIPC"),
   (versionZero, versionInf, cs!"semtimedop", cs!"SYSVIPC"),
   (versionZero, versionInf, cs!"shmat", cs!"SYSVIPC"),
   (versionZero, versionInf, cs!"shmctl", cs!"SYSVIPC"),
   (versionZero, versionInf, cs!"shmdt", cs!"SYSVIPC"),
   (versionZero, versionInf, cs!"shmget", cs!"SYSVIPC"),
   ([3, 17], [4, 18], cs!"memfd_create", cs!"TMPFS"),
   (versionZero, versionInf, cs!"chown16", cs!"UID16"),
   (versionZero, versionInf, cs!"fchown16", cs!"UID16"),
   (versionZero, versionInf, cs!"lchown16", cs!"UID16"),
   (versionZero, versionInf, cs!"getuid16", cs!"UID16"),
   (versionZero, versionInf, cs!"getgid16", cs!"UID16"),
   (versionZero, versionInf, cs!"geteuid16", cs!"UID16"),
   (versionZero, versionInf, cs!"getegid16", cs!"UID16"),
   (versionZero, versionInf, cs!"getresuid16", cs!"UID16"),
   (versionZero, versionInf, cs!"getresgid16", cs!"UID16"),
   (versionZero, versionInf, cs!"getgroups16", cs!"UID16"),
   (versionZero, versionInf, cs!"setuid16", cs!"UID16"),
   (versionZero, versionInf, cs!"setgid16", cs!"UID16"),
   (versionZero, versionInf, cs!"setreuid16", cs!"UID16"),
   (versionZero, versionInf, cs!"setregid16", cs!"UID16"),
   (versionZero, versionInf, cs!"setfsuid16", cs!"UID16"),
   (versionZero, versionInf, cs!"setfsgid16", cs!"UID16"),
   (versionZero, versionInf, cs!"setresuid16", cs!"UID16"),
   (versionZero, versionInf, cs!"setresgid16", cs!"UID16"),
   (versionZero, versionInf, cs!"setgroups16", cs!"UID16"),
   (versionZero, versionInf, cs!"userfaultfd", cs!"USERFAULTFD"),
   (versionZero, versionInf, cs!"uselib", cs!"USELIB"),
   (versionZero, [4, 3], cs!"vm86old", cs!"VM86"),
   (versionZero, [4, 3], cs!"vm86", cs!"VM86"),
   ([4, 3], versionInf, cs!"vm86old", cs!"X86_LEGACY_VM86"),
   ([4, 3], versionInf, cs!"vm86", cs!"X86_LEGACY_VM86"),
   ([5, 5], versionInf, cs!"ioperm", cs!"X86_IOPL_IOPERM"),
   ([5, 5], versionInf, cs!"iopl", cs!"X86_IOPL_IOPERM"),
   ([6, 6], versionInf, cs!"map_shadow_stack", cs!"X86_USER_SHADOW_STACK")]

/-- arch/arm.py:17-23 `kconfig` -/
def armKconfig : List (Ver × Ver × Str × List Str) :=
  [([2, 6, 21], versionInf, cs!"KEXEC=y", [cs!"PM_SLEEP_SMP=y", cs!"MMU=y"]),
   ([2, 6, 37], [5, 10], cs!"SECCOMP=y", [])]

/-- arch/arm.py:45-45 calls of `self.kconfig.add` in `__init__` when `self.abi == 'eabi'` -/
def armAdds0 : List (Ver × Ver × Str × List Str) :=
  [([2, 6, 16], versionInf, cs!"OABI_COMPAT=n", [])]

/-- arch/arm.py:56-56 calls of `self.kconfig.add` in `__init__` when `not (self.abi == 'eabi')` and `self.abi == 'oabi'` -/
def armAdds1 : List (Ver × Ver × Str × List Str) :=
  [([2, 6, 16], versionInf, cs!"OABI_COMPAT=y", [cs!"AEABI=y", cs!"THUMB2_KERNEL=n"])]

/-- arch/arm64.py:16-26 `kconfig` -/
def arm64Kconfig : List (Ver × Ver × Str × List Str) :=
  [([3, 7], versionInf, cs!"COMPAT=y", [cs!"ARM64_4K_PAGES=y", cs!"EXPERT=y"]),
   ([4, 8], versionInf, cs!"KEXEC=y", [cs!"PM_SLEEP_SMP=y"]),
   ([5, 0], versionInf, cs!"KEXEC_FILE=y", []),
   ([3, 19], [5, 10], cs!"SECCOMP=y", []),
   ([4, 7], versionInf, cs!"NUMA=y", [])]

/-- arch/mips.py:15-21 `kconfig` -/
def mipsKconfig : List (Ver × Ver × Str × List Str) :=
  [([2, 6, 20], [3, 9], cs!"KEXEC=y", [cs!"EXPERIMENTAL=y"]),
   ([3, 9], versionInf, cs!"KEXEC=y", []),
   ([2, 6, 15], [5, 10], cs!"SECCOMP=y", [])]

/-- arch/mips.py:54-62 calls of `self.kconfig.add` in `__init__` when `self.bits32` -/
def mipsAdds0 : List (Ver × Ver × Str × List Str) :=
  [(versionZero, versionInf, cs!"32BIT=y", []),
   (versionZero, versionInf, cs!"64BIT=n", []),
   ([2, 6, 15], versionInf, cs!"CPU_MIPS32_R1=n", []),
   ([2, 6, 15], versionInf, cs!"CPU_MIPS32_R2=y", [cs!"SYS_HAS_CPU_MIPS32_R2=y"]),
   ([4, 0], versionInf, cs!"CPU_MIPS32_R6=n", [])]

/-- arch/mips.py:72-85 calls of `self.kconfig.add` in `__init__` when `not (self.bits32)` -/
def mipsAdds1 : List (Ver × Ver × Str × List Str) :=
  [(versionZero, versionInf, cs!"32BIT=n", []),
   (versionZero, versionInf, cs!"64BIT=y", []),
   (versionZero, versionInf, cs!"NUMA=y", [cs!"SYS_SUPPORTS_NUMA=y"]),
   (versionZero, versionInf, cs!"MIPS32_O32=y", []),
   (versionZero, versionInf, cs!"MIPS32_N32=y", [])]

/-- arch/powerpc.py:27-45 `kconfig` -/
def powerpcKconfig : List (Ver × Ver × Str × List Str) :=
  [([2, 6, 30], versionInf, cs!"PPC_OF_BOOT_TRAMPOLINE=n", []),
   ([2, 6, 16], [2, 6, 27], cs!"CRASH_DUMP=n", []),
   ([2, 6, 27], versionInf, cs!"CRASH_DUMP=n", []),
   ([4, 12], versionInf, cs!"CRASH_DUMP=n", []),
   ([3, 4], versionInf, cs!"FA_DUMP=n", []),
   (versionZero, versionInf, cs!"RELOCATABLE=n", [cs!"PPC_OF_BOOT_TRAMPOLINE=n", cs!"CRASH_DUMP=n", cs!"FA_DUMP=n"]),
   ([2, 6, 15], [3, 9], cs!"KEXEC=y", [cs!"PPC_BOOK3S=y", cs!"EXPERIMENTAL=y"]),
   ([3, 9], versionInf, cs!"KEXEC=y", [cs!"PPC_BOOK3S=y"]),
   ([2, 6, 15], [5, 10], cs!"SECCOMP=y", [cs!"PROC_FS=y"]),
   ([2, 6, 15], versionInf, cs!"PPC_RTAS=y", [])]

/-- arch/powerpc.py:51-55 `kconfig_syscall_deps` -/
def powerpcSyscallDeps : List (Ver × Ver × Str × Str) :=
  [(versionZero, versionInf, cs!"pkey_alloc", cs!"PPC_MEM_KEYS"),
   (versionZero, versionInf, cs!"pkey_free", cs!"PPC_MEM_KEYS"),
   (versionZero, versionInf, cs!"pkey_mprotect", cs!"PPC_MEM_KEYS")]

/-- arch/powerpc.py:93-94 calls of `self.kconfig.add` in `__init__` when `self.bits32` -/
def powerpcAdds0 : List (Ver × Ver × Str × List Str) :=
  [(versionZero, versionInf, cs!"PPC64=n", []),
   (versionZero, versionInf, cs!"PPC_BOOK3S_32=y", [])]

/-- arch/powerpc.py:111-136 calls of `self.kconfig.add` in `__init__` when `not (self.bits32)` -/
def powerpcAdds1 : List (Ver × Ver × Str × List Str) :=
  [([2, 6, 15], [5, 7], cs!"COMPAT=y", [cs!"PPC64=y"]),
   ([5, 7], versionInf, cs!"COMPAT=y", [cs!"PPC64=y", cs!"CPU_LITTLE_ENDIAN=n", cs!"CC_IS_CLANG=n"]),
   ([2, 6, 15], [2, 6, 22], cs!"PPC_PSERIES=y", [cs!"PPC64=y", cs!"PPC_MULTIPLATFORM=y"]),
   ([2, 6, 22], versionInf, cs!"PPC_PSERIES=y", [cs!"PPC64=y", cs!"PPC_BOOK3S=y"]),
   ([2, 6, 15], versionInf, cs!"NUMA=y", [cs!"PPC64=y", cs!"SMP=y", cs!"PPC_PSERIES=y"]),
   ([4, 10], versionInf, cs!"KEXEC_FILE=y", [cs!"PPC64=y", cs!"CRYPTO=y", cs!"CRYPTO_SHA256=y"]),
   ([2, 6, 15], versionInf, cs!"PPC_64K_PAGES=y", [cs!"PPC_BOOK3S_64=y"]),
   ([2, 6, 25], [5, 9], cs!"PPC_SUBPAGE_PROT=y", [cs!"PPC_64K_PAGES=y", cs!"PPC_BOOK3S_64=y"]),
   ([5, 9], versionInf, cs!"PPC_SUBPAGE_PROT=y", [cs!"PPC_64K_PAGES=y", cs!"PPC_64S_HASH_MMU=y"]),
   ([4, 16], versionInf, cs!"PPC_MEM_KEYS=y", [cs!"PPC_BOOK3S_64=y", cs!"PPC_64S_HASH_MMU=y"]),
   ([4, 15], [6, 12], cs!"PPC_FAST_ENDIAN_SWITCH=y", []),
   ([2, 6, 16], versionInf, cs!"SPU_FS=y", [cs!"PPC_CELL=y", cs!"COREDUMP=y"]),
   ([2, 6, 18], versionInf, cs!"SPU_BASE=y", [])]

/-- arch/riscv.py:15-22 `kconfig` -/
def riscvKconfig : List (Ver × Ver × Str × List Str) :=
  [([4, 8], versionInf, cs!"KEXEC=y", [cs!"MMU=y"]),
   ([5, 5], [5, 10], cs!"SECCOMP=y", []),
   ([5, 12], versionInf, cs!"NUMA=y", [cs!"SMP=y", cs!"MMU=y"])]

/-- arch/riscv.py:47-52 calls of `self.kconfig.add` in `__init__` when `self.bits32` -/
def riscvAdds0 : List (Ver × Ver × Str × List Str) :=
  [([4, 15], [5, 1], cs!"32BIT=y", []),
   ([4, 15], [5, 1], cs!"64BIT=n", []),
   ([4, 15], [5, 1], cs!"ARCH_RV32I=y", []),
   ([4, 15], [5, 1], cs!"ARCH_RV64I=n", []),
   ([4, 15], [5, 1], cs!"CPU_SUPPORTS_32BIT_KERNEL=y", []),
   ([4, 15], [5, 1], cs!"CPU_SUPPORTS_64BIT_KERNEL=n", [])]

/-- arch/riscv.py:58-60 calls of `self.kconfig.add` in `__init__` when `not (self.bits32)` -/
def riscvAdds1 : List (Ver × Ver × Str × List Str) :=
  [([5, 19], versionInf, cs!"COMPAT=y", [cs!"64BIT=y", cs!"MMU=y"]),
   ([5, 19], versionInf, cs!"KEXEC_FILE=y", [cs!"64BIT=y", cs!"MMU=y"])]

/-- arch/x86.py:21-35 `kconfig` -/
def x86Kconfig : List (Ver × Ver × Str × List Str) :=
  [([4, 15], versionInf, cs!"RETPOLINE=n", []),
   ([2, 6, 13], [2, 6, 19], cs!"KEXEC=y", [cs!"EXPERIMENTAL=y"]),
   ([2, 6, 19], versionInf, cs!"KEXEC=y", []),
   ([2, 6, 12], [2, 6, 24], cs!"SECCOMP=y", [cs!"PROC_FS=y"]),
   ([2, 6, 24], [5, 10], cs!"SECCOMP=y", []),
   ([5, 5], versionInf, cs!"X86_IOPL_IOPERM=y", []),
   ([4, 3], versionInf, cs!"MODIFY_LDT_SYSCALL=y", []),
   ([4, 3], versionInf, cs!"MODIFY_LDT_SYSCALL=y", [])]

/-- arch/x86.py:37-41 `kconfig_syscall_deps` -/
def x86SyscallDeps : List (Ver × Ver × Str × Str) :=
  [(versionZero, versionInf, cs!"pkey_alloc", cs!"X86_INTEL_MEMORY_PROTECTION_KEYS"),
   (versionZero, versionInf, cs!"pkey_free", cs!"X86_INTEL_MEMORY_PROTECTION_KEYS"),
   (versionZero, versionInf, cs!"pkey_mprotect", cs!"X86_INTEL_MEMORY_PROTECTION_KEYS")]

/-- arch/x86.py:96-111 calls of `self.kconfig.add` in `__init__` when `self.bits32` -/
def x86Adds0 : List (Ver × Ver × Str × List Str) :=
  [([2, 6, 16], [2, 6, 18], cs!"VM86=y", [cs!"X86=y", cs!"EMBEDDED=y"]),
   ([2, 6, 18], [2, 6, 24], cs!"VM86=y", [cs!"EMBEDDED=y"]),
   ([2, 6, 24], [4, 3], cs!"VM86=y", [cs!"X86_32=y", cs!"EXPERT=y"]),
   ([4, 3], versionInf, cs!"X86_LEGACY_VM86=y", [cs!"X86_32=y"]),
   ([4, 3], versionInf, cs!"X86_LEGACY_VM86=y", [cs!"X86_32=y"]),
   (versionZero, versionInf, cs!"NOHIGHMEM=n", []),
   (versionZero, versionInf, cs!"HIGHMEM4G=n", []),
   (versionZero, versionInf, cs!"HIGHMEM64G=y", []),
   (versionZero, versionInf, cs!"X86_BIGSMP=y", [cs!"SMP=y"]),
   (versionZero, [2, 6, 23], cs!"NUMA=y", [cs!"SMP=y", cs!"HIGHMEM64G=y"]),
   ([2, 6, 23], [2, 6, 29], cs!"NUMA=y", [cs!"SMP=y", cs!"HIGHMEM64G=y", cs!"EXPERIMENTAL=y"]),
   ([2, 6, 29], versionInf, cs!"NUMA=y", [cs!"SMP=y", cs!"HIGHMEM64G=y", cs!"X86_BIGSMP=y"])]

/-- arch/x86.py:123-141 calls of `self.kconfig.add` in `__init__` when `not (self.bits32)` -/
def x86Adds1 : List (Ver × Ver × Str × List Str) :=
  [(versionZero, versionInf, cs!"IA32_EMULATION=y", []),
   ([3, 4], [3, 9], cs!"X86_X32=y", [cs!"EXPERIMENTAL=y"]),
   ([3, 9], [5, 18], cs!"X86_X32=y", []),
   ([5, 18], versionInf, cs!"X86_X32_ABI=y", []),
   ([3, 17], versionInf, cs!"KEXEC_FILE=y", [cs!"X86_64=y", cs!"CRYPTO=y", cs!"CRYPTO_SHA256=y"]),
   (versionZero, [2, 6, 15], cs!"NUMA=y", []),
   ([2, 6, 15], [2, 6, 29], cs!"NUMA=y", [cs!"SMP=y"]),
   ([2, 6, 29], versionInf, cs!"NUMA=y", [cs!"SMP=y"]),
   ([4, 6], versionInf, cs!"X86_INTEL_MEMORY_PROTECTION_KEYS=y", [cs!"X86_64=y", cs!"CPU_SUP_INTEL=y"]),
   ([6, 6], versionInf, cs!"X86_USER_SHADOW_STACK=y", [cs!"AS_WRUSS=y"])]

end Verif
