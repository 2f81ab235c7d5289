import Verif.Model.Syscall
import Verif.Model.KconfigTables
/-! # Model of /repo/src/systrack/arch

The class hierarchy `Arch` / `ArchArm` / ... is modelled by one record `Arch` whose field `kind` is the
class; a method overridden by subclasses is one function branching on `kind`. Attributes that no branch
of `__init__` sets are the class attributes. -/
set_option autoImplicit false

namespace Verif

/-- arch/__init__.py:15-22 the classes in `ARCH_CLASSES` -/
inductive Kind where
  | arm | arm64 | mips | powerpc | riscv | x86
  deriving DecidableEq, Repr

/-- arch/__init__.py:15-22 `ARCH_CLASSES`, in order -/
def archClasses : List Kind := [.arm, .arm64, .mips, .powerpc, .riscv, .x86]

/-- class attribute `name`: arm.py:12, arm64.py:11, mips.py:12, powerpc.py:14, riscv.py:11, x86.py:19 -/
def Kind.name : Kind → Str
  | .arm => cs!"arm"
  | .arm64 => cs!"arm64"
  | .mips => cs!"mips"
  | .powerpc => cs!"powerpc"
  | .riscv => cs!"riscv"
  | .x86 => cs!"x86"

/-- arch_base.py:11-62 attributes of an `Arch` object (the class-level Kconfig tables are in `KStore`) -/
structure Arch where
  kind : Kind
  version : Ver
  abi : Str
  bits32 : Bool
  abiBits32 : Bool := false
  usesFunctionDescriptors : Bool := false
  compat : Bool := false
  configTargets : List Str := [cs!"defconfig"]
  tableName : Option Str := some cs!"sys_call_table"
  numBase : Nat := 0
  numReg : Option Str := none
  argRegs : Option (List Str) := none
  deriving DecidableEq, Repr

/-- `v >= w` -/
def verGe (v w : Ver) : Bool := verLe w v

/-! ## Constructors -/

/-- arm.py:25-56 `ArchArm.__init__` (class attributes arm.py:12-15) -/
def newArm (v : Ver) (abi : Str) (bits32 : Bool) : Res Arch := do
  pyAssert bits32
  pyAssert (decide (abi = cs!"eabi" ∨ abi = cs!"oabi"))
  let targets := if verGe v [3, 7] then [cs!"multi_v7_defconfig"] else [cs!"defconfig"]
  let base : Arch := { kind := .arm, version := v, abi := abi, bits32 := true, abiBits32 := true,
                       configTargets := targets,
                       argRegs := some [cs!"r0", cs!"r1", cs!"r2", cs!"r3", cs!"r4", cs!"r5", cs!"r6"] }
  if abi = cs!"eabi" then .ok { base with numReg := some cs!"r7" }
  else .ok { base with numBase := 0x900000, numReg := some cs!"swi <NR>" }

/-- arm64.py:28-38 `ArchArm64.__init__` (class attributes arm64.py:11-14) -/
def newArm64 (v : Ver) (abi : Str) (bits32 : Bool) : Res Arch := do
  pyAssert (!bits32)
  pyAssert (verGe v [3, 7])
  pyAssert (decide (abi = cs!"aarch64" ∨ abi = cs!"aarch32"))
  let base : Arch := { kind := .arm64, version := v, abi := abi, bits32 := false, numReg := some cs!"w8",
                       argRegs := some [cs!"x0", cs!"x1", cs!"x2", cs!"x3", cs!"x4", cs!"x5"] }
  if abi = cs!"aarch32" then
    .ok { base with compat := true, abiBits32 := true, tableName := some cs!"compat_sys_call_table" }
  else .ok base

/-- mips.py:23-85 `ArchMips.__init__` (class attributes mips.py:12-13) -/
def newMips (v : Ver) (abi : Str) (bits32 : Bool) : Res Arch := do
  pyAssert (decide (abi = cs!"o32" ∨ abi = cs!"n32" ∨ abi = cs!"n64"))
  let base : Arch := { kind := .mips, version := v, abi := abi, bits32 := bits32, numReg := some cs!"v0" }
  let a1 : Arch :=
    if abi = cs!"o32" then
      { base with
        abiBits32 := true
        numBase := 4000
        argRegs := some [cs!"a0", cs!"a1", cs!"a2", cs!"a3", cs!"stack", cs!"stack", cs!"stack", cs!"stack"]
        tableName := if bits32 then base.tableName else some cs!"sys32_call_table" }
    else
      { base with
        abiBits32 := false
        argRegs := some [cs!"a0", cs!"a1", cs!"a2", cs!"a3", cs!"a4", cs!"a5"]
        numBase := if abi = cs!"n64" then 5000 else 6000
        tableName := if abi = cs!"n64" then base.tableName else some cs!"sysn32_call_table" }
  if bits32 then do
    pyAssert (decide (abi = cs!"o32"))
    .ok { a1 with configTargets := [cs!"defconfig"] }
  else .ok { a1 with compat := decide (abi ≠ cs!"n64"), configTargets := [cs!"ip27_defconfig"] }

/-- powerpc.py:57-136 `ArchPowerPC.__init__` (class attributes powerpc.py:14-16) -/
def newPowerPC (v : Ver) (abi : Str) (bits32 : Bool) : Res Arch := do
  pyAssert (decide (abi = cs!"ppc32" ∨ abi = cs!"ppc64" ∨ abi = cs!"spu"))
  pyAssert (verGe v [2, 6, 15])
  pyAssert (decide (abi ≠ cs!"spu") || verGe v [2, 6, 16])
  let base : Arch := { kind := .powerpc, version := v, abi := abi, bits32 := bits32, numReg := some cs!"r0" }
  let a1 : Arch :=
    if abi = cs!"ppc32" then
      { base with
        argRegs := some [cs!"r3", cs!"r4", cs!"r5", cs!"r6", cs!"r7", cs!"r8", cs!"r9"]
        abiBits32 := true }
    else
      { base with
        argRegs := some [cs!"r3", cs!"r4", cs!"r5", cs!"r6", cs!"r7", cs!"r8"]
        abiBits32 := false }
  if bits32 then do
    pyAssert (verGe v [2, 6, 31])
    .ok { a1 with
          compat := false
          usesFunctionDescriptors := false
          tableName := some cs!"sys_call_table"
          configTargets := [cs!"ppc64_defconfig"] }
  else
    .ok { a1 with
          compat := decide (abi ≠ cs!"ppc64")
          abiBits32 := decide (abi = cs!"ppc32")
          configTargets := [cs!"ppc64_defconfig"]
          usesFunctionDescriptors := true
          tableName :=
            if abi = cs!"spu" then some cs!"spu_syscall_table"
            else if abi = cs!"ppc32" ∧ verGe v [5, 0] then some cs!"compat_sys_call_table"
            else a1.tableName }

/-- riscv.py:24-60 `ArchRiscV.__init__` (class attributes riscv.py:11-13) -/
def newRiscV (v : Ver) (abi : Str) (bits32 : Bool) : Res Arch := do
  pyAssert (verGe v [4, 15])
  pyAssert (decide (abi = cs!"rv32" ∨ abi = cs!"rv64"))
  let base : Arch := { kind := .riscv, version := v, abi := abi, bits32 := bits32, numReg := some cs!"a7",
                       argRegs := some [cs!"a0", cs!"a1", cs!"a2", cs!"a3", cs!"a4", cs!"a5"] }
  let a1 : Arch ← (
    if abi = cs!"rv32" then
      if bits32 then .ok { base with abiBits32 := true }
      else do
        pyAssert (verGe v [5, 19])
        .ok { base with abiBits32 := true, compat := true, tableName := some cs!"compat_sys_call_table" }
    else .ok base : Res Arch)
  if bits32 then
    .ok { a1 with
          configTargets :=
            if verGe v [6, 8] then [cs!"defconfig", cs!"32-bit.config"]
            else if verGe v [5, 1] then [cs!"rv32_defconfig"]
            else [cs!"defconfig"] }
  else .ok { a1 with configTargets := [cs!"defconfig"] }

/-- x86.py:57-141 `ArchX86.__init__` (class attribute x86.py:19) -/
def newX86 (v : Ver) (abi : Str) (bits32 : Bool) : Res Arch := do
  pyAssert (decide (abi = cs!"x64" ∨ abi = cs!"ia32" ∨ abi = cs!"x32"))
  pyAssert (verGe v [2, 6, 24])
  let table : Option Str :=
    if verLt v [6, 9] then
      if !bits32 && decide (abi = cs!"ia32") then some cs!"ia32_sys_call_table"
      else if !bits32 && decide (abi = cs!"x32") && verGe v [5, 4] then some cs!"x32_sys_call_table"
      else some cs!"sys_call_table"
    else none
  let regs : Str × List Str :=
    if abi = cs!"ia32" then (cs!"eax", [cs!"ebx", cs!"ecx", cs!"edx", cs!"esi", cs!"edi", cs!"ebp"])
    else (cs!"rax", [cs!"rdi", cs!"rsi", cs!"rdx", cs!"r10", cs!"r8", cs!"r9"])
  let base : Arch := { kind := .x86, version := v, abi := abi, bits32 := bits32, tableName := table,
                       numReg := some regs.1, argRegs := some regs.2 }
  if bits32 then do
    pyAssert (decide (abi = cs!"ia32"))
    .ok { base with abiBits32 := true, configTargets := [cs!"i386_defconfig"] }
  else
    .ok { base with
          abiBits32 := decide (abi = cs!"ia32")
          compat := decide (abi ≠ cs!"x64")
          configTargets := [cs!"x86_64_defconfig"]
          numBase := if abi = cs!"x32" then 0x40000000 else 0 }

/-- `klass(kernel_version, abi, bits32)` -/
def newArch (k : Kind) (v : Ver) (abi : Str) (bits32 : Bool) : Res Arch :=
  match k with
  | .arm => newArm v abi bits32
  | .arm64 => newArm64 v abi bits32
  | .mips => newMips v abi bits32
  | .powerpc => newPowerPC v abi bits32
  | .riscv => newRiscV v abi bits32
  | .x86 => newX86 v abi bits32

/-! ## Class-level Kconfig tables -/

/-- the class attribute `kconfig` of each class: one object shared by all instances of the class -/
abbrev KStore := Kind → VDict Str (List Str)

/-- class bodies: arm.py:17-23, arm64.py:16-26, mips.py:15-21, powerpc.py:27-45, riscv.py:15-22, x86.py:21-35 -/
def Kind.kconfigTable : Kind → List (Ver × Ver × Str × List Str)
  | .arm => armKconfig
  | .arm64 => arm64Kconfig
  | .mips => mipsKconfig
  | .powerpc => powerpcKconfig
  | .riscv => riscvKconfig
  | .x86 => x86Kconfig

/-- the class attributes right after import -/
def initialStore : KStore := fun k => VDict.init k.kconfigTable

/-- the `self.kconfig.add` calls of the constructor, in order: arm.py:45, arm.py:56, mips.py:54-62,
mips.py:72-85, powerpc.py:93-94, powerpc.py:111-136, riscv.py:47-52, riscv.py:58-60, x86.py:96-111,
x86.py:123-141. They come after every assert of the constructor. -/
def ctorAdds (k : Kind) (abi : Str) (bits32 : Bool) : List (Ver × Ver × Str × List Str) :=
  match k with
  | .arm => if abi = cs!"eabi" then armAdds0 else armAdds1
  | .arm64 => []
  | .mips => if bits32 then mipsAdds0 else mipsAdds1
  | .powerpc => if bits32 then powerpcAdds0 else powerpcAdds1
  | .riscv => if bits32 then riscvAdds0 else riscvAdds1
  | .x86 => if bits32 then x86Adds0 else x86Adds1

/-- several `add` calls in a row -/
def VDict.addAll {κ β : Type} [DecidableEq κ] (d : VDict κ β) (es : List (Ver × Ver × κ × β)) : VDict κ β :=
  es.foldl (fun d e => d.add e.1 e.2.1 e.2.2.1 e.2.2.2) d

/-- a constructor call with its effect on the class-level tables -/
def createArch (st : KStore) (k : Kind) (v : Ver) (abi : Str) (bits32 : Bool) : Res (Arch × KStore) := do
  let a ← newArch k v abi bits32
  .ok (a, fun k' => if k' = k then (st k).addAll (ctorAdds k abi bits32) else st k')

/-- `arch.kconfig[version]` as read by kernel.py (value only) -/
def archKconfig (st : KStore) (a : Arch) (v : Ver) : Dict Str (List Str) := ((st a.kind).getItem v).1

/-- class attribute `kconfig_syscall_deps`: powerpc.py:51-55, x86.py:37-41, else arch_base.py:62 -/
def Kind.syscallDepsTable : Kind → List (Ver × Ver × Str × Str)
  | .powerpc => powerpcSyscallDeps
  | .x86 => x86SyscallDeps
  | _ => []

/-! ## Matching a vmlinux -/

/-- `name in vmlinux.symbols` -/
def Elf.hasSymbol (e : Elf) (name : Str) : Bool := dmem name e.symbols

/-- `klass.match(vmlinux)`: arm.py:58-74, arm64.py:40-52, mips.py:87-102, powerpc.py:138-165, riscv.py:63-76,
x86.py:143-172. In `ArchArm.match` the assignment at arm.py:72 is not in an `else` branch. -/
def Kind.match (k : Kind) (e : Elf) : Res (Option (Bool × List Str)) :=
  match k with
  | .arm =>
    if e.machine ≠ EM_ARM then .ok none
    else do
      pyAssert e.bits32
      if e.hasSymbol cs!"sys_oabi_call_table" then .ok (some (true, [cs!"eabi", cs!"oabi"]))
      else .ok (some (true, [cs!"oabi"]))
  | .arm64 =>
    if e.machine ≠ EM_AARCH64 then .ok none
    else do
      pyAssert (!e.bits32)
      if e.hasSymbol cs!"compat_sys_call_table" then .ok (some (false, [cs!"aarch64", cs!"aarch32"]))
      else .ok (some (false, [cs!"aarch64"]))
  | .mips =>
    if e.machine ≠ EM_MIPS then .ok none
    else if e.bits32 then .ok (some (true, [cs!"o32"]))
    else .ok (some (false, [cs!"n64"]
        ++ (if e.hasSymbol cs!"sys32_call_table" then [cs!"o32"] else [])
        ++ (if e.hasSymbol cs!"sysn32_call_table" then [cs!"n32"] else [])))
  | .powerpc => do
    let ok ← (
      if e.machine = EM_PPC then do pyAssert e.bits32; .ok true
      else if e.machine = EM_PPC64 then do pyAssert (!e.bits32); .ok true
      else .ok false : Res Bool)
    if !ok then .ok none
    else if e.bits32 then .ok (some (true, [cs!"ppc32"]))
    else .ok (some (false, [cs!"ppc64"]
        ++ (if e.hasSymbol cs!"compat_sys_call_table" || e.hasSymbol cs!"compat_sys_execve"
              || e.hasSymbol cs!".compat_sys_execve" then [cs!"ppc32"] else [])
        ++ (if e.hasSymbol cs!"spu_syscall_table" then [cs!"spu"] else [])))
  | .riscv =>
    if e.machine ≠ EM_RISCV then .ok none
    else if e.bits32 then .ok (some (true, [cs!"rv32"]))
    else .ok (some (false, [cs!"rv64"]
        ++ (if e.hasSymbol cs!"compat_sys_call_table" then [cs!"rv32"] else [])))
  | .x86 => do
    let ok ← (
      if e.machine = EM_386 then do pyAssert e.bits32; .ok true
      else if e.machine = EM_X86_64 then do pyAssert (!e.bits32); .ok true
      else .ok false : Res Bool)
    if !ok then .ok none
    else if e.bits32 then .ok (some (true, [cs!"ia32"]))
    else .ok (some (false, [cs!"x64"]
        ++ (if e.hasSymbol cs!"ia32_sys_call_table" then [cs!"ia32"]
            else if e.hasSymbol cs!"ia32_sys_call" then [cs!"ia32"] else [])
        ++ (if e.hasSymbol cs!"x32_sys_call_table" then [cs!"x32"]
            else if e.hasSymbol cs!"x32_sys_call" then [cs!"x32"]
            else if (e.symbols.map Prod.fst).any (isInfix cs!"x32_compat_sys") then [cs!"x32"] else [])))

/-- arch/__init__.py:126-137 `arch_from_vmlinux`, over the classes still to try. A tuple `match` is always
true. -/
def archFromVmlinuxGo (e : Elf) : List Kind → Res (Option (Kind × Bool × List Str))
  | [] => .ok none
  | k :: ks => do
    match ← k.match e with
    | some m => .ok (some (k, m))
    | none => archFromVmlinuxGo e ks

/-- arch/__init__.py:126-137 `arch_from_vmlinux` -/
def archFromVmlinux (e : Elf) : Res (Option (Kind × Bool × List Str)) := archFromVmlinuxGo e archClasses

/-- `arch.matches(vmlinux)`: arm.py:76-77, arm64.py:54-55, mips.py:104-108, powerpc.py:167-173, riscv.py:78-82,
x86.py:174-178 -/
def Arch.matches (a : Arch) (e : Elf) : Res Bool :=
  match a.kind with
  | .arm => .ok (e.bits32 && decide (e.machine = EM_ARM))
  | .arm64 => .ok (!e.bits32 && decide (e.machine = EM_AARCH64))
  | .mips => .ok (decide (e.machine = EM_MIPS) && e.bits32 == a.bits32)
  | .powerpc => do
    pyAssert e.bigEndian
    .ok (decide (e.machine = if a.bits32 then EM_PPC else EM_PPC64) && e.bits32 == a.bits32)
  | .riscv => .ok (decide (e.machine = EM_RISCV) && e.bits32 == a.bits32)
  | .x86 => .ok (decide (e.machine = if a.bits32 then EM_386 else EM_X86_64) && e.bits32 == a.bits32)

/-- `arch.adjust_abi(vmlinux)`: arm.py:79-90, x86.py:180-188, else arch_base.py:92-97 -/
def Arch.adjustAbi (a : Arch) (e : Elf) : Arch :=
  match a.kind with
  | .arm =>
    if a.abi = cs!"oabi" ∧ e.hasSymbol cs!"sys_oabi_call_table" then
      { a with compat := true, tableName := some cs!"sys_oabi_call_table" }
    else { a with compat := false, tableName := some cs!"sys_call_table" }
  | .x86 =>
    if verLt a.version [6, 9] then a
    else if e.hasSymbol cs!"sys_call_table" ∧ !a.compat then { a with tableName := some cs!"sys_call_table" }
    else a
  | _ => a

/-! ## Choosing among symbols -/

/-- arch_base.py:99-110 `prefer_compat` -/
def preferCompat (compat : Bool) (a b : Symbol) : Option Symbol :=
  let ca := isInfix cs!"compat" a.name
  let cb := isInfix cs!"compat" b.name
  if ca != cb then
    if compat then (if ca then some a else some b)
    else (if ca then some b else some a)
  else none

/-- arch_base.py:112-130 `Arch.preferred_symbol` -/
def basePreferred (a b : Symbol) : Symbol :=
  if startsWith a.name cs!"sys_" then a
  else if startsWith b.name cs!"sys_" then b
  else if startsWith a.name cs!"compat_sys_" then a else b

/-- `str.islower` (simplification: ASCII): no upper case letter and at least one lower case letter -/
def isLower (s : Str) : Bool :=
  !s.any (fun c => 65 ≤ c.toNat && c.toNat ≤ 90) && s.any (fun c => 97 ≤ c.toNat && c.toNat ≤ 122)

/-- x86.py:194-217 `ArchX86.preferred_symbol` -/
def x86Preferred (abi : Str) (a b : Symbol) : Symbol :=
  let ia32 (s : Symbol) := startsWith s.name cs!"__ia32_"
  let x64 (s : Symbol) := startsWith s.name cs!"__x64_"
  let x32 (s : Symbol) := startsWith s.name cs!"__x32_"
  if abi = cs!"ia32" then
    if ia32 a then a
    else if ia32 b then b
    else if x64 a then a
    else if x64 b then b
    else if !isLower a.name then b
    else if !isLower b.name then a
    else basePreferred a b
  else if abi = cs!"x32" ∧ x32 a then a
  else if abi = cs!"x32" ∧ x32 b then b
  else if x64 a then a
  else if x64 b then b
  else if ia32 a then b
  else if ia32 b then a
  else if !isLower a.name then b
  else if !isLower b.name then a
  else basePreferred a b

/-- powerpc.py:175-192 `ArchPowerPC.preferred_symbol` -/
def ppcPreferred (bits32 : Bool) (a b : Symbol) : Symbol :=
  if bits32 then basePreferred a b
  else
    let adot := startsWith a.name cs!"."
    let bdot := startsWith b.name cs!"."
    if adot || bdot then
      if !adot then b
      else if !bdot then a
      else if startsWith a.name cs!".sys_" then a
      else if startsWith b.name cs!".sys_" then b
      else if startsWith a.name cs!".compat_sys_" then a else b
    else basePreferred a b

/-- `arch.preferred_symbol(a, b)`: arm.py:92-96, arm64.py:57-65, mips.py:110-114, powerpc.py:175-192,
riscv.py:84-91, x86.py:194-217 -/
def Arch.preferredSymbol (ar : Arch) (a b : Symbol) : Symbol :=
  match ar.kind with
  | .arm | .mips =>
    match preferCompat ar.compat a b with
    | some c => c
    | none => basePreferred a b
  | .arm64 =>
    match preferCompat ar.compat a b with
    | some c => c
    | none =>
      if startsWith a.name cs!"__arm64_" then a
      else if startsWith b.name cs!"__arm64_" then b
      else basePreferred a b
  | .riscv =>
    match preferCompat ar.compat a b with
    | some c => c
    | none =>
      if startsWith a.name cs!"__riscv_" then a
      else if startsWith b.name cs!"__riscv_" then b
      else basePreferred a b
  | .powerpc => ppcPreferred ar.bits32 a b
  | .x86 => x86Preferred ar.abi a b

/-- arch_base.py:132-158 `symbol_is_ni_syscall` -/
def symbolIsNi (s : Symbol) : Bool :=
  decide (s.type = cs!"FUNC")
  && anysuffix s.name [cs!"sys_ni_syscall", cs!"compat_ni_syscall"]
  && !startsWith s.name cs!"_eil_addr_"
  && !startsWith s.name cs!"__cfi_"
  && !startsWith s.name cs!"__pfx_"

/-! ## Numbers -/

/-- x86.py:50-55 `__bad_x32_numbers` -/
def badX32Numbers : List Nat :=
  [13, 15, 16, 19, 20, 45, 46, 47, 54, 55, 59, 101, 127, 128, 129, 131,
   134, 156, 174, 177, 178, 180, 205, 206, 209, 211, 214, 215, 222, 236,
   244, 246, 247, 273, 274, 278, 279, 295, 296, 297, 299, 307, 310, 311,
   322, 327, 328]

/-- `n & ~0x40000000` -/
def clearX32Bit (n : Nat) : Nat := if n.testBit 30 then n - 0x40000000 else n

/-- `arch.skip_syscall(sc)`: powerpc.py:194-204, x86.py:219-279, else arch_base.py:160-171. `index` is a
table index (never None where the method is called, kernel.py:412-420). -/
def Arch.skipSyscall (a : Arch) (index number : Nat) : Bool :=
  match a.kind with
  | .powerpc =>
    if a.bits32 || verGe a.version [5, 0] then false
    else if a.abi = cs!"ppc32" then index % 2 == 0
    else index % 2 == 1
  | .x86 =>
    if a.abi = cs!"x64" ∧ 512 ≤ number ∧ number ≤ 547 then true
    else if a.abi = cs!"x32" ∧ verGe a.version [5, 4] then false
    else if a.abi = cs!"x32" ∧ badX32Numbers.contains (clearX32Bit number) then true
    else if a.abi = cs!"ia32" ∧ !a.bits32 ∧ (number = 113 ∨ number = 166) then true
    else if a.abi = cs!"ia32" ∧ a.bits32 ∧ (number = 380 ∨ number = 381 ∨ number = 382) then true
    else false
  | _ => false

/-- `arch.adjust_syscall_number(number)`: powerpc.py:270-275, else arch_base.py:290-295 -/
def Arch.adjustNumber (a : Arch) (number : Nat) : Nat :=
  match a.kind with
  | .powerpc => if a.bits32 || verGe a.version [5, 0] then number else number / 2
  | _ => number

/-- kernel.py:452, 463-470 the number reported for the table index `idx`; `none` when the entry is skipped -/
def Arch.slot (a : Arch) (idx : Nat) : Option Nat :=
  let num := a.adjustNumber (a.numBase + idx)
  if a.skipSyscall idx num then none else some num

/-! ## Names -/

/-- arch_base.py:173-184 `Arch.translate_syscall_symbol_name` -/
def baseTranslate (n : Str) : Str :=
  noprefix n [cs!"ptregs_sys_", cs!"ptregs_compat_sys_", cs!"__se_compat_sys_", cs!"__se_sys_", cs!"__sys_",
    cs!"compat_sys_"]

/-- `arch.translate_syscall_symbol_name(name)`: arm.py:98-104, powerpc.py:206-207, x86.py:281-298, else
arch_base.py:173-184 -/
def Arch.translateName (a : Arch) (n : Str) : Str :=
  match a.kind with
  | .arm => nosuffix (baseTranslate n) [cs!"_wrapper"]
  | .powerpc => baseTranslate (noprefix n [cs!".sys_", cs!"."])
  | .x86 => noprefix (baseTranslate n) [cs!"stub32_", cs!"stub_"]
  | _ => baseTranslate n

/-- `arch._normalize_syscall_name(name)`: arm.py:106-111, arm64.py:67-70, mips.py:116-120, powerpc.py:209-210,
x86.py:300-302, else arch_base.py:186-192 -/
def Arch.normalizeArch (a : Arch) (n : Str) : Str :=
  match a.kind with
  | .arm => noprefix (if a.abi = cs!"oabi" then noprefix n [cs!"oabi_"] else n) [cs!"arm_"]
  | .arm64 => noprefix n [cs!"aarch32_", cs!"arm64_"]
  | .mips => noprefix n [cs!"sysm_", cs!"mips_", cs!"mipsmt_sys_"]
  | .powerpc => noprefix n [cs!"ppc64_", cs!"ppc32_", cs!"ppc_"]
  | .riscv => n
  | .x86 => noprefix n [cs!"ia32_", cs!"x86_", cs!"x32_"]

/-- arch_base.py:194-245 `normalize_syscall_name` -/
def Arch.normalizeName (a : Arch) (n : Str) : Str :=
  let n1 := nosuffix n [cs!"_time32", cs!"_time64"]
  let n2 := if endsWith n1 cs!"time32" || endsWith n1 cs!"time64" then sliceToNeg n1 2 else n1
  let n3 := noprefix n2 [cs!"32_", cs!"sys32_"]
  let n4 := noprefix n3 [cs!"old_"]
  a.normalizeArch n4

/-! ## Dummy implementations -/

/-- `code[i]` -/
def byteAt (code : Bytes) (i : Nat) : Res UInt8 :=
  match code[i]? with
  | some b => .ok b
  | none => .error .index

/-- `int.from_bytes(bs, order, signed=True)` -/
def sintOf (big : Bool) (bs : Bytes) : Int :=
  let n := uintOf big bs
  if 2 * n < 256 ^ bs.length then (n : Int) else (n : Int) - (256 ^ bs.length : Nat)

/-- x86.py:304-339 `ArchX86._dummy_syscall_code` -/
def x86Dummy (sym : Symbol) (e : Elf) : Res (Option Bytes) :=
  if sym.size < 6 ∨ sym.size > 16 then .ok none
  else do
    let orig ← e.readSymbol sym
    let endbr := startsWith orig [0xf3, 0x0f, 0x1e, 0xfa] || startsWith orig [0xf3, 0x0f, 0x1e, 0xfb]
    let code := if endbr then orig.drop 4 else orig
    let sz : Int := if endbr then (sym.size : Int) - 4 else sym.size
    let badImm (bs : Bytes) := decide (bs = [0xda, 0xff, 0xff, 0xff] ∨ bs = [0xea, 0xff, 0xff, 0xff])
    let hit32 ← (
      if decide (code.take 1 = [0xb8]) && badImm ((code.drop 1).take 4) then
        if sz = 6 then do .ok ((← byteAt code 5) == 0xc3)
        else if sz = 7 then do .ok ((← byteAt code 5) == 0xeb)
        else if sz = 10 then do .ok ((← byteAt code 5) == 0xe9)
        else .ok false
      else .ok false : Res Bool)
    if hit32 then .ok (some orig)
    else do
      let hit64 ← (
        if decide (code.take 3 = [0x48, 0xc7, 0xc0]) && badImm ((code.drop 3).take 4) then
          if sz = 8 then do .ok ((← byteAt code 7) == 0xc3)
          else if sz = 9 then do .ok ((← byteAt code 7) == 0xeb)
          else if sz = 12 then do .ok ((← byteAt code 7) == 0xe9)
          else .ok false
        else .ok false : Res Bool)
      .ok (if hit64 then some orig else none)

/-- arm.py:113-128 `ArchArm._dummy_syscall_code` -/
def armDummy (sym : Symbol) (e : Elf) : Res (Option Bytes) :=
  if sym.size ≠ 6 then .ok none
  else do
    let code ← e.readSymbol sym
    .ok (if code = [0x6f, 0xf0, 0x15, 0x00, 0x70, 0x47] ∨ code = [0x6f, 0xf0, 0x25, 0x00, 0x70, 0x47]
      then some code else none)

/-- mips.py:122-150 `ArchMips._dummy_syscall_code` -/
def mipsDummy (sym : Symbol) (e : Elf) : Res (Option Bytes) :=
  if sym.size ≠ 8 then .ok none
  else do
    let code ← e.readSymbol sym
    let imm : Option Int :=
      if e.bigEndian then
        if startsWith code [0x03, 0xe0, 0x00, 0x08, 0x24, 0x02] then some (sintOf true (code.drop 6)) else none
      else
        if startsWith code [0x08, 0x00, 0xe0, 0x03] && endsWith code [0x02, 0x24]
        then some (sintOf false ((code.drop 4).take 2)) else none
    .ok (if imm = some (-22) ∨ imm = some (-89) then some code else none)

/-- `iter_unpack('<>'[big] + 'L', code)`: struct.error unless the length is a multiple of 4 -/
def unpackWords (big : Bool) : Bytes → Res (List Nat)
  | [] => .ok []
  | a :: b :: c :: d :: rest => do
    let ws ← unpackWords big rest
    .ok (uintOf big [a, b, c, d] :: ws)
  | _ => .error .structError

/-- powerpc.py:227-228 the variables of the loop -/
structure PpcScan where
  dec : Option Nat := none
  inc : Option Nat := none
  insns : List Nat := []
  deriving DecidableEq, Repr

/-- powerpc.py:230-258 one iteration of the loop; `none` is the `return None` at line 256 -/
def ppcScanStep (s : PpcScan) (insn : Nat) : Option PpcScan :=
  let hi := insn >>> 16
  if insn = 0x7c0802a6 ∨ insn = 0x7c0803a6 ∨ insn = 0x60000000 then some s
  else if hi >>> 8 = 0x4b then some s
  else if hi = 0x9001 ∨ hi = 0xf801 ∨ hi = 0xe801 ∨ hi = 0x8001 then some s
  else if insn &&& 0xffff0003 = 0xf8210001 then some { s with dec := some (0x10000 - (insn &&& 0xfffc)) }
  else if hi = 0x9421 ∨ hi = 0xf821 then some { s with dec := some (0x10000 - (insn &&& 0xffff)) }
  else if hi = 0x3821 ∧ s.dec.isSome then some { s with inc := some (insn &&& 0xffff) }
  else if s.insns.length > 2 then none
  else some { s with insns := s.insns ++ [insn] }

/-- powerpc.py:230-258 the loop -/
def ppcScan : PpcScan → List Nat → Option PpcScan
  | s, [] => some s
  | s, i :: is =>
    match ppcScanStep s i with
    | none => none
    | some s' => ppcScan s' is

/-- powerpc.py:260-268 the checks after the loop -/
def ppcScanOk (s : PpcScan) : Bool :=
  if (s.dec.isSome || s.inc.isSome) && decide (s.dec ≠ s.inc) then false
  else decide (s.insns = [0x3860ffda, 0x4e800020])

/-- powerpc.py:212-268 `ArchPowerPC._dummy_syscall_code` -/
def ppcDummy (sym : Symbol) (e : Elf) : Res (Option Bytes) :=
  if sym.size < 8 then .ok none
  else do
    let code ← e.readSymbol sym
    let words ← unpackWords e.bigEndian code
    match ppcScan {} words with
    | none => .ok none
    | some s => .ok (if ppcScanOk s then some code else none)

/-- `arch._dummy_syscall_code(sc, vmlinux)`; arm64 and riscv inherit arch_base.py:247-252. Only the symbol of
the syscall is used. -/
def Arch.dummyCode (a : Arch) (sym : Symbol) (e : Elf) : Res (Option Bytes) :=
  match a.kind with
  | .arm => armDummy sym e
  | .mips => mipsDummy sym e
  | .powerpc => ppcDummy sym e
  | .x86 => x86Dummy sym e
  | .arm64 | .riscv => .ok none

/-- arch_base.py:254-288 `is_dummy_syscall`. With `ni_sym` None and a code match the log call at line 277
raises AttributeError (`ni_sym.name`). -/
def Arch.isDummy (a : Arch) (sym : Symbol) (e : Elf) (niSym : Option Symbol) (niCode : Option Bytes) : Res Bool :=
  if niSym.any (fun n => sym.realVaddr == n.realVaddr) then .ok true
  else do
    let hit ← (
      match niCode with
      | none => .ok false
      | some c => do
        let code ← e.vaddrRead sym.realVaddr c.length
        .ok (decide (code = c)) : Res Bool)
    if hit then (if niSym.isSome then .ok true else .error .attr)
    else do
      let code ← a.dummyCode sym e
      .ok code.isSome

/-! ## Esoteric syscalls -/

/-- type_hints.py `EsotericSyscall` item: (number, name, symbol_name, signature, kconfig_opts) -/
structure Esoteric where
  number : Nat
  name : Str
  symbolName : Str
  signature : List Str
  kconfig : Option Str
  deriving DecidableEq, Repr

/-- arm.py:130-151 `ArchArm.extract_esoteric_syscalls` -/
def armEsoteric (a : Arch) (e : Elf) : List Esoteric :=
  if !dmem cs!"arm_syscall" e.functions then []
  else
    let base := a.numBase + 0x0f0000
    [⟨base + 1, cs!"breakpoint", cs!"arm_syscall", [], none⟩,
     ⟨base + 2, cs!"cacheflush", cs!"arm_syscall",
        [cs!"unsigned long start", cs!"unsigned long end", cs!"int flags"], none⟩,
     ⟨base + 3, cs!"usr26", cs!"arm_syscall", [], none⟩,
     ⟨base + 4, cs!"usr32", cs!"arm_syscall", [], none⟩,
     ⟨base + 5, cs!"set_tls", cs!"arm_syscall", [cs!"unsigned long val"], none⟩]
    ++ (if verGe a.version [4, 15] then [⟨base + 6, cs!"get_tls", cs!"arm_syscall", [], none⟩] else [])

/-- `l.index(x, start)`: none stands for ValueError -/
def indexFrom (x : Nat) (start : Nat) (l : List Nat) : Option Nat :=
  ((l.drop start).findIdx? (· == x)).map (· + start)

/-- `f.read(n)` after a seek: a negative count reads everything -/
def Elf.vaddrReadInt (e : Elf) (vaddr : Nat) (size : Int) : Res Bytes := do
  let off ← e.vaddrToFileOffset vaddr
  .ok (if size < 0 then e.data.drop off else readAt e.data off size.toNat)

/-- powerpc.py:319-340 does the instruction sequence occur (`insns` are the words of the function) -/
def ppcSwitchEndian (insns : List Nat) : Bool :=
  match indexFrom 0x2c201ebe 0 insns with
  | none => false
  | some idxCmpdi =>
    match insns[idxCmpdi + 1]? with
    | none => false
    | some beq =>
      let idxMfsrr1 := idxCmpdi + 1 + (beq &&& 0xffff) / 4
      if insns[idxMfsrr1]? ≠ some 0x7d9b02a6 then false
      else if !([0x41c2, 0x41e2, 0x4182, 0x41a2].contains (beq >>> 16)) then false
      else
        match indexFrom 0x698c0001 (idxMfsrr1 + 1) insns with
        | none => false
        | some idxXori =>
          match indexFrom 0x7d9b03a6 (idxXori + 1) insns with
          | none => false
          | some idxMtsrr1 => (indexFrom 0x4c000024 (idxMtsrr1 + 1) insns).isSome

/-- powerpc.py:313-314 end of the code to look at -/
def ppcBoundary (e : Elf) (exc : Symbol) : Nat :=
  match e.nextSymbol exc with
  | some s => s.vaddr
  | none => exc.vaddr + 0x80

/-- powerpc.py:277-344 `ArchPowerPC.extract_esoteric_syscalls` -/
def ppcEsoteric (a : Arch) (e : Elf) : Res (List Esoteric) :=
  if a.abi ≠ cs!"ppc64" ∨ verGe a.version [6, 12] then .ok []
  else
    match dget cs!"exc_real_0xc00_system_call" e.symbols with
    | none => .ok []
    | some exc => do
      let code ← e.vaddrReadInt exc.vaddr ((ppcBoundary e exc : Int) - exc.vaddr)
      let insns ← unpackWords e.bigEndian code
      if ppcSwitchEndian insns then
        .ok [⟨0x1ebe, cs!"switch_endian", exc.name, [],
              if verGe a.version [4, 15] then some cs!"PPC_FAST_ENDIAN_SWITCH" else none⟩]
      else .ok []

/-- `arch.extract_esoteric_syscalls(vmlinux)`; arch_base.py:305-316 unless overridden -/
def Arch.extractEsoteric (a : Arch) (e : Elf) : Res (List Esoteric) :=
  match a.kind with
  | .arm => .ok (armEsoteric a e)
  | .powerpc => ppcEsoteric a e
  | _ => .ok []

/-! ## Registry -/

/-- arch/__init__.py:26-46 `SUPPORTED_ARCHS` before the update: name, class, ABI, bits32 (ArchArm's default for
`bits32` is True, arm.py:25; False for the others) -/
def supportedBase : Dict Str (Kind × Str × Bool) :=
  [(cs!"x86", .x86, cs!"ia32", true),
   (cs!"x86-64", .x86, cs!"x64", false),
   (cs!"x86-64-x32", .x86, cs!"x32", false),
   (cs!"x86-64-ia32", .x86, cs!"ia32", false),
   (cs!"arm", .arm, cs!"eabi", true),
   (cs!"arm-oabi", .arm, cs!"oabi", true),
   (cs!"arm64", .arm64, cs!"aarch64", false),
   (cs!"arm64-aarch32", .arm64, cs!"aarch32", false),
   (cs!"mips", .mips, cs!"o32", true),
   (cs!"mips64", .mips, cs!"n64", false),
   (cs!"mips64-n32", .mips, cs!"n32", false),
   (cs!"mips64-o32", .mips, cs!"o32", false),
   (cs!"powerpc", .powerpc, cs!"ppc32", true),
   (cs!"powerpc64", .powerpc, cs!"ppc64", false),
   (cs!"powerpc64-32", .powerpc, cs!"ppc32", false),
   (cs!"powerpc64-spu", .powerpc, cs!"spu", false),
   (cs!"riscv", .riscv, cs!"rv32", true),
   (cs!"riscv64", .riscv, cs!"rv64", false),
   (cs!"riscv64-32", .riscv, cs!"rv32", false)]

/-- arch/__init__.py:48-75 `ARCH_ALIASES`: (name, alias) -/
def archAliases : List (Str × Str) :=
  [(cs!"x86", cs!"i386"), (cs!"x86", cs!"ia32"), (cs!"x86-64", cs!"x64"), (cs!"x86-64-x32", cs!"x32"),
   (cs!"x86-64-ia32", cs!"ia32-64"), (cs!"arm", cs!"arm-eabi"), (cs!"arm", cs!"eabi"), (cs!"arm-oabi", cs!"oabi"),
   (cs!"arm64", cs!"aarch64"), (cs!"arm64-aarch32", cs!"aarch32"), (cs!"mips", cs!"mips32"), (cs!"mips", cs!"o32"),
   (cs!"mips64", cs!"n64"), (cs!"mips64-n32", cs!"n32"), (cs!"mips64-o32", cs!"o32-64"), (cs!"powerpc", cs!"ppc"),
   (cs!"powerpc", cs!"ppc32"), (cs!"powerpc64", cs!"ppc64"), (cs!"powerpc64-32", cs!"ppc64-32"),
   (cs!"powerpc64-spu", cs!"ppc64-spu"), (cs!"powerpc64-spu", cs!"spu"), (cs!"riscv", cs!"riscv32"),
   (cs!"riscv", cs!"rv32"), (cs!"riscv64", cs!"rv64"), (cs!"riscv64-32", cs!"rv64-32")]

/-- arch/__init__.py:77 the comprehension (a missing name would be a KeyError at import; dropped here, and
theorem `supportedArchs_complete` shows none is missing) and the `update` -/
def supportedArchs : Dict Str (Kind × Str × Bool) :=
  dupdate supportedBase (archAliases.filterMap fun p => (dget p.1 supportedBase).map fun x => (p.2, x))

/-- arch/__init__.py:120-124 `arch_from_name` -/
def archFromName (name : Str) (v : Ver) : Res Arch :=
  match dget name supportedArchs with
  | none => .error .key
  | some (k, abi, bits32) => newArch k v abi bits32

/-- arch/__init__.py:120-124 `arch_from_name` with its effect on the class-level tables -/
def archFromNameSt (st : KStore) (name : Str) (v : Ver) : Res (Arch × KStore) :=
  match dget name supportedArchs with
  | none => .error .key
  | some (k, abi, bits32) => createArch st k v abi bits32

end Verif
