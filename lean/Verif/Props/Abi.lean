import Verif.Spec.Abi
import Verif.Props.EndToEnd
/-! # Table, numbers and registers of each ABI (C103) -/
set_option autoImplicit false

namespace Verif
open Spec

theorem tableOf_unique {v : Ver} {e : Elf} {n : Str} {t t' : Option Str} (h : TableOf v e n t) (h' : TableOf v e n t') : t = t' := by
  have h54 : v < [5, 4] → v < [6, 9] := fun hv => List.lt_trans hv (by decide)
  have d1 : ∀ n ∈ [cs!"arm", cs!"arm64", cs!"mips", cs!"mips64", cs!"powerpc", cs!"powerpc64", cs!"riscv", cs!"riscv64"],
      n ∉ [cs!"x86", cs!"x86-64"] ∧ n ∉ [cs!"x86-64-ia32", cs!"x86-64-x32"] := by decide
  have d2 : ∀ n ∈ [cs!"x86", cs!"x86-64"], n ∉ [cs!"x86-64-ia32", cs!"x86-64-x32"] := by decide
  cases h <;> cases h' <;> first
    | rfl
    | contradiction
    | (simp_all; done)
    | exact absurd ‹n ∈ [cs!"x86", cs!"x86-64"]› (d1 n ‹_›).1
    | exact absurd ‹n ∈ [cs!"x86-64-ia32", cs!"x86-64-x32"]› (d1 n ‹_›).2
    | exact absurd ‹n ∈ [cs!"x86-64-ia32", cs!"x86-64-x32"]› (d2 n ‹_›)

/-- the table of a new object -/
def newTable (v : Ver) (n : Str) : Option Str :=
  if n = cs!"arm64-aarch32" ∨ n = cs!"riscv64-32" then some cs!"compat_sys_call_table"
  else if n = cs!"mips64-n32" then some cs!"sysn32_call_table"
  else if n = cs!"mips64-o32" then some cs!"sys32_call_table"
  else if n = cs!"powerpc64-spu" then some cs!"spu_syscall_table"
  else if n = cs!"powerpc64-32" then if verGe v [5, 0] then some cs!"compat_sys_call_table" else some cs!"sys_call_table"
  else if n = cs!"x86" ∨ n = cs!"x86-64" then if verLt v [6, 9] then some cs!"sys_call_table" else none
  else if n = cs!"x86-64-ia32" then if verLt v [6, 9] then some cs!"ia32_sys_call_table" else none
  else if n = cs!"x86-64-x32" then
    if verLt v [6, 9] then if verGe v [5, 4] then some cs!"x32_sys_call_table" else some cs!"sys_call_table" else none
  else some cs!"sys_call_table"

/-- the registers of a new object -/
def newRegs (n : Str) : Option Str × Option (List Str) :=
  if n = cs!"arm" then (some cs!"r7", some [cs!"r0", cs!"r1", cs!"r2", cs!"r3", cs!"r4", cs!"r5", cs!"r6"])
  else if n = cs!"arm-oabi" then (some cs!"swi <NR>", some [cs!"r0", cs!"r1", cs!"r2", cs!"r3", cs!"r4", cs!"r5", cs!"r6"])
  else if n = cs!"arm64" ∨ n = cs!"arm64-aarch32" then (some cs!"w8", some [cs!"x0", cs!"x1", cs!"x2", cs!"x3", cs!"x4", cs!"x5"])
  else if n = cs!"mips" ∨ n = cs!"mips64-o32" then
    (some cs!"v0", some [cs!"a0", cs!"a1", cs!"a2", cs!"a3", cs!"stack", cs!"stack", cs!"stack", cs!"stack"])
  else if n = cs!"mips64" ∨ n = cs!"mips64-n32" then (some cs!"v0", some [cs!"a0", cs!"a1", cs!"a2", cs!"a3", cs!"a4", cs!"a5"])
  else if n = cs!"powerpc" ∨ n = cs!"powerpc64-32" then
    (some cs!"r0", some [cs!"r3", cs!"r4", cs!"r5", cs!"r6", cs!"r7", cs!"r8", cs!"r9"])
  else if n = cs!"powerpc64" ∨ n = cs!"powerpc64-spu" then (some cs!"r0", some [cs!"r3", cs!"r4", cs!"r5", cs!"r6", cs!"r7", cs!"r8"])
  else if n = cs!"x86" ∨ n = cs!"x86-64-ia32" then (some cs!"eax", some [cs!"ebx", cs!"ecx", cs!"edx", cs!"esi", cs!"edi", cs!"ebp"])
  else if n = cs!"x86-64" ∨ n = cs!"x86-64-x32" then (some cs!"rax", some [cs!"rdi", cs!"rsi", cs!"rdx", cs!"r10", cs!"r8", cs!"r9"])
  else (some cs!"a7", some [cs!"a0", cs!"a1", cs!"a2", cs!"a3", cs!"a4", cs!"a5"])

theorem new_fields (row : HelpRow) (hrow : row ∈ helpTable) (v : Ver) (a0 : Arch) (h : newArch row.kind v row.abi row.kernel32 = .ok a0) :
    RowAttrs row v a0 ∧ a0.tableName = newTable v row.value ∧ a0.numBase = numberBase row.value ∧
    (a0.numReg, a0.argRegs) = newRegs row.value := by
  have hattr : RowAttrs row v a0 := by
    obtain ⟨h1, h2⟩ := newArch_row row hrow v
    cases hl : verLe (minVersion row.kind row.abi row.kernel32) v with
    | true => obtain ⟨a, ha, hr⟩ := h1 hl; rw [h] at ha; cases ha; exact hr
    | false => rw [h2 hl] at h; cases h
  refine ⟨hattr, ?_⟩
  clear hattr
  simp only [helpTable, List.mem_cons, List.not_mem_nil, or_false] at hrow
  rcases hrow with rfl | rfl | rfl | rfl | rfl | rfl | rfl | rfl | rfl | rfl | rfl | rfl | rfl | rfl | rfl | rfl | rfl |
    rfl | rfl
  all_goals
    simp only [newArch, newArm, newArm64, newMips, newPowerPC, newRiscV, newX86, pyAssert, bind, Except.bind] at h
    simp [newTable, newRegs, numberBase] at h ⊢
    repeat' split at h
  all_goals (try (simp at h; done))
  all_goals (try (simp only [Except.ok.injEq] at h; subst h; simp_all; done))
  all_goals (try (subst h; simp; done))
  all_goals
    simp only [Except.ok.injEq] at h
    subst h
    by_cases h519 : verGe v [5, 19] = true
    · rename_i heq
      simp only [h519, if_true, Except.ok.injEq] at heq
      subst heq
      simp
    · rename_i heq
      simp [h519] at heq

/-- C103: the table read, the numbers, and whether the ABI is a compat one. -/
theorem C103_table (row : HelpRow) (hrow : row ∈ helpTable) (v : Ver) (a0 : Arch) (h : newArch row.kind v row.abi row.kernel32 = .ok a0)
    (e : Elf) :
    (∀ t, (a0.adjustAbi e).tableName = t ↔ TableOf v e row.value t) ∧
    (a0.adjustAbi e).numBase = numberBase row.value ∧
    ((a0.adjustAbi e).compat = true ↔ IsCompat row e) ∧
    (a0.adjustAbi e).abi = row.abi ∧ (a0.adjustAbi e).kind = row.kind ∧ (a0.adjustAbi e).bits32 = row.kernel32 ∧
    (a0.adjustAbi e).abiBits32 = row.abi32 := by
  suffices hs : TableOf v e row.value (a0.adjustAbi e).tableName ∧
      (a0.adjustAbi e).numBase = numberBase row.value ∧
      ((a0.adjustAbi e).compat = true ↔ IsCompat row e) ∧
      (a0.adjustAbi e).abi = row.abi ∧ (a0.adjustAbi e).kind = row.kind ∧ (a0.adjustAbi e).bits32 = row.kernel32 ∧
      (a0.adjustAbi e).abiBits32 = row.abi32 from
    ⟨fun t => ⟨fun ht => ht ▸ hs.1, fun ht => tableOf_unique hs.1 ht⟩, hs.2⟩
  obtain ⟨⟨h1, h2, h3, h4, h5, h6⟩, h7, h8, -⟩ := new_fields row hrow v a0 h
  clear h
  have hge : ∀ w : Ver, verGe v w = true ↔ ¬ v < w := fun w => by
    constructor
    · intro h hv; rw [verGe_of_lt hv] at h; cases h
    · exact verGe_of_not_lt
  have hl : v < [5, 4] → v < [6, 9] := fun hv => List.lt_trans hv (by decide)
  have hnew : row.kind ≠ .arm → row.kind ≠ .x86 → TableOf v e row.value (newTable v row.value) := by
    intro ha hx
    simp only [helpTable, List.mem_cons, List.not_mem_nil, or_false] at hrow
    rcases hrow with rfl | rfl | rfl | rfl | rfl | rfl | rfl | rfl | rfl | rfl | rfl | rfl | rfl | rfl | rfl | rfl | rfl |
      rfl | rfl
    all_goals simp only [ne_eq, not_true_eq_false, reduceCtorEq, not_false_eq_true] at ha hx
    all_goals first
      | exact .native _ (by decide)
      | exact .aarch32
      | exact .n32
      | exact .o32
      | exact .spu
      | exact .rv32
      | skip
    have e1 : newTable v cs!"powerpc64-32" =
      if verGe v [5, 0] then some cs!"compat_sys_call_table" else some cs!"sys_call_table" := rfl
    simp only [e1]
    by_cases h50 : v < [5, 0]
    · rw [if_neg (by rw [hge]; simpa using h50)]
      exact .ppcShared h50
    · rw [if_pos ((hge _).2 h50)]
      exact .ppcCompat h50
  have hcompat : row.kind ≠ .arm → (a0.compat = true ↔ IsCompat row e) := by
    intro ha
    have : row.value ≠ cs!"arm-oabi" := by
      have : ∀ row ∈ helpTable, row.kind ≠ .arm → row.value ≠ cs!"arm-oabi" := by decide
      exact this row hrow ha
    rw [h6]
    simp only [IsCompat, this, false_and, or_false]
    simp
  by_cases harm : row.kind = .arm
  · have hne : row.value ≠ cs!"arm-oabi" → row.value = cs!"arm" ∧ row.abi ≠ cs!"oabi" := by
      intro ho
      have : ∀ row ∈ helpTable, row.kind = .arm → row.value ≠ cs!"arm-oabi" → row.value = cs!"arm" ∧ row.abi ≠ cs!"oabi" := by decide
      exact this row hrow harm ho
    have h32 : row.kernel32 = true := by
      have : ∀ row ∈ helpTable, row.kind = .arm → row.kernel32 = true := by decide
      exact this row hrow harm
    by_cases ho : row.value = cs!"arm-oabi"
    · have habi : row.abi = cs!"oabi" := by
        have : ∀ row ∈ helpTable, row.value = cs!"arm-oabi" → row.abi = cs!"oabi" := by decide
        exact this row hrow ho
      by_cases hs : HasSym e cs!"sys_oabi_call_table"
      · have hadj : a0.adjustAbi e = { a0 with compat := true, tableName := some cs!"sys_oabi_call_table" } := by
          unfold Arch.adjustAbi
          rw [h1, harm]
          simp only []
          rw [if_pos ⟨h2.trans habi, (hasSymbol_iff _ _).2 hs⟩]
        rw [hadj]
        refine ⟨?_, h8, by simp [IsCompat, ho, hs], h2, h1, h3, h4⟩
        rw [ho]
        exact .oabiCompat hs
      · have hadj : a0.adjustAbi e = { a0 with compat := false, tableName := some cs!"sys_call_table" } := by
          unfold Arch.adjustAbi
          rw [h1, harm]
          simp only []
          rw [if_neg (fun h => hs ((hasSymbol_iff _ _).1 h.2))]
        rw [hadj]
        refine ⟨?_, h8, by simp [IsCompat, hs, h32], h2, h1, h3, h4⟩
        rw [ho]
        exact .oabiOnly hs
    · obtain ⟨hv1, hv2⟩ := hne ho
      have hadj : a0.adjustAbi e = { a0 with compat := false, tableName := some cs!"sys_call_table" } := by
        unfold Arch.adjustAbi
        rw [h1, harm]
        simp only []
        rw [if_neg (fun h => hv2 (h2.symm.trans h.1))]
      rw [hadj]
      refine ⟨?_, h8, by simp [IsCompat, ho, h32], h2, h1, h3, h4⟩
      rw [hv1]
      exact .native _ (by decide)
  · by_cases hx : row.kind = .x86
    · have hcols : (row.value ∈ [cs!"x86", cs!"x86-64"] ∧ (!row.kernel32 && decide (row.abi ≠ mainAbi64 row.kind)) = false) ∨
          (row.value ∈ [cs!"x86-64-ia32", cs!"x86-64-x32"] ∧ (!row.kernel32 && decide (row.abi ≠ mainAbi64 row.kind)) = true) := by
        have : ∀ row ∈ helpTable, row.kind = .x86 →
          ((row.value ∈ [cs!"x86", cs!"x86-64"] ∧ (!row.kernel32 && decide (row.abi ≠ mainAbi64 row.kind)) = false) ∨
          (row.value ∈ [cs!"x86-64-ia32", cs!"x86-64-x32"] ∧ (!row.kernel32 && decide (row.abi ≠ mainAbi64 row.kind)) = true)) := by decide
        exact this row hrow hx
      rw [← h6] at hcols
      have t1 : row.value ∈ [cs!"x86", cs!"x86-64"] → newTable v row.value = if verLt v [6, 9] then some cs!"sys_call_table" else none := by
        intro h
        simp only [List.mem_cons, List.not_mem_nil, or_false] at h
        rcases h with h | h <;> rw [h] <;> rfl
      have t2 : row.value ∈ [cs!"x86-64-ia32", cs!"x86-64-x32"] → ¬ v < [6, 9] → newTable v row.value = none := by
        intro h h'
        have hf := (verLt_false_iff _ _).2 h'
        simp only [List.mem_cons, List.not_mem_nil, or_false] at h
        rcases h with h | h <;> rw [h]
        · have : newTable v cs!"x86-64-ia32" = if verLt v [6, 9] then some cs!"ia32_sys_call_table" else none := rfl
          rw [this, hf]; rfl
        · have : newTable v cs!"x86-64-x32" = if verLt v [6, 9] then if verGe v [5, 4] then some cs!"x32_sys_call_table" else some cs!"sys_call_table" else none := rfl
          rw [this, hf]; rfl
      by_cases h69 : v < [6, 9]
      · have hlt := (verLt_iff _ _).2 h69
        have hadj : a0.adjustAbi e = a0 := by
          unfold Arch.adjustAbi
          rw [h1, hx]
          simp only []
          rw [h5, if_pos hlt]
        rw [hadj]
        refine ⟨?_, h8, hcompat harm, h2, h1, h3, h4⟩
        rw [h7]
        rcases hcols with ⟨hm, -⟩ | ⟨hm, -⟩
        · rw [t1 hm, hlt]
          exact .x86 _ hm h69
        · simp only [List.mem_cons, List.not_mem_nil, or_false] at hm
          rcases hm with hm | hm <;> rw [hm]
          · have : newTable v cs!"x86-64-ia32" = if verLt v [6, 9] then some cs!"ia32_sys_call_table" else none := rfl
            rw [this, hlt]
            exact .ia32 h69
          · have : newTable v cs!"x86-64-x32" = if verLt v [6, 9] then if verGe v [5, 4] then some cs!"x32_sys_call_table" else some cs!"sys_call_table" else none := rfl
            rw [this, hlt]
            by_cases h54 : v < [5, 4]
            · rw [if_pos rfl, if_neg (by rw [hge]; simpa using h54)]
              exact .x32Shared h54
            · rw [if_pos rfl, if_pos ((hge _).2 h54)]
              exact .x32 h54 h69
      · have hlt := (verLt_false_iff _ _).2 h69
        have hnlt : ¬ verLt a0.version [6, 9] = true := by rw [h5, hlt]; decide
        rcases hcols with ⟨hm, hc⟩ | ⟨hm, hc⟩
        · by_cases hs : HasSym e cs!"sys_call_table"
          · have hadj : a0.adjustAbi e = { a0 with tableName := some cs!"sys_call_table" } := by
              unfold Arch.adjustAbi
              rw [h1, hx]
              simp only []
              rw [if_neg hnlt, if_pos ⟨(hasSymbol_iff _ _).2 hs, by rw [hc]; rfl⟩]
            rw [hadj]
            exact ⟨.x86Ftrace _ hm h69 hs, h8, hcompat harm, h2, h1, h3, h4⟩
          · have hadj : a0.adjustAbi e = a0 := by
              unfold Arch.adjustAbi
              rw [h1, hx]
              simp only []
              rw [if_neg hnlt, if_neg (fun h => hs ((hasSymbol_iff _ _).1 h.1))]
            rw [hadj]
            refine ⟨?_, h8, hcompat harm, h2, h1, h3, h4⟩
            rw [h7, t1 hm, hlt]
            exact .x86None _ hm h69 hs
        · have hadj : a0.adjustAbi e = a0 := by
            unfold Arch.adjustAbi
            rw [h1, hx]
            simp only []
            rw [if_neg hnlt, if_neg (by rw [hc]; simp)]
          rw [hadj]
          refine ⟨?_, h8, hcompat harm, h2, h1, h3, h4⟩
          rw [h7, t2 hm h69]
          exact .x86Other _ hm h69
    · have hadj : a0.adjustAbi e = a0 := by
        unfold Arch.adjustAbi
        rw [h1]
        cases hk : row.kind <;> first | rfl | exact absurd hk harm | exact absurd hk hx
      rw [hadj]
      exact ⟨h7 ▸ hnew harm hx, h8, hcompat harm, h2, h1, h3, h4⟩

/-- adjusting does not change the registers -/
theorem adjust_regs (a : Arch) (e : Elf) : (a.adjustAbi e).numReg = a.numReg ∧ (a.adjustAbi e).argRegs = a.argRegs := by
  unfold Arch.adjustAbi
  repeat' split
  all_goals exact ⟨rfl, rfl⟩

/-- C103 (partial: the property is about every variant; false for 32-bit programs on arm64, see `C103_registers_refuted`). The
registers are those of the manual page. -/
theorem C103_registers_partial (row : HelpRow) (hrow : row ∈ helpTable) (v : Ver) (a0 : Arch)
    (h : newArch row.kind v row.abi row.kernel32 = .ok a0) (e : Elf) (hne : row.value ≠ cs!"arm64-aarch32") :
    ∀ num regs, Convention row.value num regs → (a0.adjustAbi e).numReg = some num ∧ (a0.adjustAbi e).argRegs = some regs := by
  intro num regs hc
  obtain ⟨-, -, -, h9⟩ := new_fields row hrow v a0 h
  rw [(adjust_regs a0 e).1, (adjust_regs a0 e).2]
  suffices hs : newRegs row.value = (some num, some regs) by
    rw [hs] at h9
    exact Prod.mk.injEq .. ▸ h9
  clear h9 h hrow
  revert hne
  generalize row.value = n at hc
  intro hne
  cases hc with
  | aarch32 => exact absurd rfl hne
  | mipsO32 _ h => simp only [List.mem_cons, List.not_mem_nil, or_false] at h; rcases h with rfl | rfl <;> rfl
  | mips64 _ h => simp only [List.mem_cons, List.not_mem_nil, or_false] at h; rcases h with rfl | rfl <;> rfl
  | powerpc _ h => simp only [List.mem_cons, List.not_mem_nil, or_false] at h; rcases h with rfl | rfl <;> rfl
  | riscv _ h => simp only [List.mem_cons, List.not_mem_nil, or_false] at h; rcases h with rfl | rfl | rfl <;> rfl
  | i386 _ h => simp only [List.mem_cons, List.not_mem_nil, or_false] at h; rcases h with rfl | rfl <;> rfl
  | x86 _ h => simp only [List.mem_cons, List.not_mem_nil, or_false] at h; rcases h with rfl | rfl <;> rfl
  | _ => rfl

/-- C103: every variant of the help but the one for the SPU has an entry in the manual page. -/
theorem C103_documented (row : HelpRow) (hrow : row ∈ helpTable) (hne : row.value ≠ cs!"powerpc64-spu") :
    ∃ num regs, Convention row.value num regs := by
  simp only [helpTable, List.mem_cons, List.not_mem_nil, or_false] at hrow
  rcases hrow with rfl | rfl | rfl | rfl | rfl | rfl | rfl | rfl | rfl | rfl | rfl | rfl | rfl | rfl | rfl | rfl | rfl |
    rfl | rfl
  all_goals first
    | exact absurd rfl hne
    | exact ⟨_, _, .armOabi⟩
    | exact ⟨_, _, .armEabi⟩
    | exact ⟨_, _, .arm64⟩
    | exact ⟨_, _, .aarch32⟩
    | exact ⟨_, _, .powerpc64⟩
    | exact ⟨_, _, .mipsO32 _ (by decide)⟩
    | exact ⟨_, _, .mips64 _ (by decide)⟩
    | exact ⟨_, _, .powerpc _ (by decide)⟩
    | exact ⟨_, _, .riscv _ (by decide)⟩
    | exact ⟨_, _, .i386 _ (by decide)⟩
    | exact ⟨_, _, .x86 _ (by decide)⟩

/-- C103, 32-bit programs on arm64: whatever the version and the image, the registers are those of 64-bit programs. -/
theorem C103_aarch32 (v : Ver) (a0 : Arch) (h : archFromName cs!"arm64-aarch32" v = .ok a0) (e : Elf) :
    (a0.adjustAbi e).numReg = some cs!"w8" ∧
    (a0.adjustAbi e).argRegs = some [cs!"x0", cs!"x1", cs!"x2", cs!"x3", cs!"x4", cs!"x5"] := by
  have h' : newArch .arm64 v cs!"aarch32" false = .ok a0 := h
  obtain ⟨-, -, -, h9⟩ := new_fields ⟨cs!"arm64-aarch32", [cs!"aarch32"], .arm64, false, true, cs!"aarch32"⟩ (by simp [helpTable]) v a0 h'
  have h9' : (a0.numReg, a0.argRegs) = (some cs!"w8", some [cs!"x0", cs!"x1", cs!"x2", cs!"x3", cs!"x4", cs!"x5"]) := h9
  rw [(adjust_regs a0 e).1, (adjust_regs a0 e).2]
  exact Prod.mk.injEq .. ▸ h9'

/-- C103 is false for 32-bit programs on arm64: they put the number in r7. -/
theorem C103_registers_refuted : ¬ ∀ (row : HelpRow) (v : Ver) (a0 : Arch) (e : Elf) (num : Str) (regs : List Str), row ∈ helpTable →
    newArch row.kind v row.abi row.kernel32 = .ok a0 → Convention row.value num regs →
    (a0.adjustAbi e).numReg = some num ∧ (a0.adjustAbi e).argRegs = some regs := by
  intro h
  obtain ⟨a0, ha⟩ : ∃ a0, archFromName cs!"arm64-aarch32" [6, 1] = .ok a0 := ⟨_, rfl⟩
  have h1 := h ⟨cs!"arm64-aarch32", [cs!"aarch32"], .arm64, false, true, cs!"aarch32"⟩ [6, 1] a0 sampleX86Elf _ _ (by simp [helpTable]) ha .aarch32
  rw [(C103_aarch32 _ a0 ha sampleX86Elf).1] at h1
  exact absurd h1.1 (by decide)

/-- C103: the variant analysed is one of the help: the one named, or the one detected. -/
theorem C103_selected (n : Option Str) (e : Elf) (a0 : Arch) (v : Ver)
    (hn : ∀ x, n = some x → ∃ row ∈ helpTable, x ∈ row.value :: row.aliases) (h : GoodKernel n e a0 v) :
    ∃ row ∈ helpTable, newArch row.kind v row.abi row.kernel32 = .ok a0 ∧ (∀ x, n = some x → x ∈ row.value :: row.aliases) ∧
      (n = none → IsFor row.kind e ∧ row.kernel32 = e.bits32) := by
  cases n with
  | some m =>
    obtain ⟨row, hrow, hm⟩ := hn m rfl
    refine ⟨row, hrow, ?_, fun x hx => by cases hx; exact hm, fun h => by cases h⟩
    have h1 := h.named m rfl
    simpa only [archFromName, supportedArchs_rows row hrow m hm] using h1
  | none =>
    obtain ⟨k, b, abi, hd, ha⟩ := h.detected rfl
    obtain ⟨hf, h⟩ := ((C24_detection e).1 k b [abi]).1 hd
    rw [match_detected k e hf] at h
    simp only [Except.ok.injEq, Option.some.injEq, Prod.mk.injEq] at h
    obtain ⟨rfl, h2⟩ := h
    obtain ⟨row, hr, rfl, rfl, hb⟩ := detected_row k e hf abi (by rw [h2]; simp)
    exact ⟨row, hr, (by rw [hb]; exact ha), (fun x hx => by cases hx), fun _ => ⟨hf, hb⟩⟩

/-- C103: what a successful run with `-f json` says about the kernel. -/
theorem C103_printed (w : MWorld) (hw : Pythonic w) (help : Str) (args : Args) (s : MState) (hf : args.format = .json)
    (h0 : (main w help args s).1 = .ok 0) (hb : ¬ BuildMode args) (hh : ¬ AsksForHelp args) :
    ∃ (e : Elf) (row : HelpRow) (ver : Ver) (text : Str) (doc kobj abi conv : Json) (t : Option Str) (numReg : Option Str)
      (argRegs : Option (List Str)) (compat : Bool),
      (∃ p hist, vmlinuxPath args = some p ∧ LoadedFrom w hist p e) ∧ versionFromVmlinux e = .ok (some ver) ∧
      row ∈ helpTable ∧ (∀ x, args.arch = some x → lower x ∈ row.value :: row.aliases) ∧
      (main w help args s).2.out = some text ∧ IsJson text doc ∧ Member doc cs!"kernel" kobj ∧
      Member kobj cs!"syscall_table_symbol" (orNull .str t) ∧ TableOf ver e row.value t ∧
      Member kobj cs!"abi" abi ∧ Member abi cs!"name" (.str row.abi) ∧ Member abi cs!"bits" (.num (if row.abi32 then 32 else 64)) ∧
      Member abi cs!"compat" (.bool compat) ∧ (compat = true ↔ IsCompat row e) ∧
      Member abi cs!"calling_convention" conv ∧ Member conv cs!"syscall_nr" (orNull .str numReg) ∧
      Member conv cs!"parameters" (orNull (fun l => .arr (l.map .str)) argRegs) ∧
      (row.value ≠ cs!"arm64-aarch32" → ∀ num regs, Convention row.value num regs → numReg = some num ∧ argRegs = some regs) := by
  obtain ⟨p, e, a0, ver, hist, entries, ref, code, cands, located, scs, text, tag, doc, kobj, objs, hA, h1, h2, -, -, h5, h6, -⟩ :=
    C88_json_run w hw help args s hf h0 hb hh
  have hv : ¬ Invalid args := by
    intro hi
    have := (C73_invalid w help args s hi hh).1
    rw [h0] at this
    cases this
  obtain ⟨row, hrow, hnew, hname, -⟩ := C103_selected _ e a0 ver (fun x hx => by
    cases ha : args.arch with
    | none => rw [ha] at hx; cases hx
    | some a =>
      apply Classical.byContradiction
      intro hn
      refine hv (.arch ⟨a, ha, fun hx' => hn ?_⟩)
      rw [ha] at hx
      simp only [Option.map_some, Option.some.injEq] at hx
      rw [← hx]
      exact hx') hA.kernel
  obtain ⟨t1, t2, t3, t4, t5, t6, t7⟩ := C103_table row hrow ver a0 hnew e
  obtain ⟨arch, abi, conv, k1, k2, k3, k4⟩ := h6
  have mem : ∀ {j : Json} {l : List (Str × Json)} {n : Str} {x : Json}, Object j l → (n, x) ∈ l → Member j n x := by
    rintro j l n x ⟨l', rfl, hp, -⟩ hm
    exact ⟨l', rfl, hp.symm.subset hm⟩
  refine ⟨e, row, ver, text, doc, kobj, abi, conv, (a0.adjustAbi e).tableName, (a0.adjustAbi e).numReg, (a0.adjustAbi e).argRegs,
    (a0.adjustAbi e).compat, ?_, hA.kernel.version, hrow, fun x hx => hname _ (by rw [hx]; rfl), h1, h2, mem h5 (by simp), mem k1 (by simp),
    (t1 _).1 rfl, mem k1 (by simp), ?_, ?_, mem k3 (by simp), t3, mem k3 (by simp), mem k4 (by simp), mem k4 (by simp),
    C103_registers_partial row hrow ver a0 hnew e⟩
  · obtain ⟨g1, hist', g2⟩ := hA.image
    exact ⟨p, hist', g1, g2⟩
  · rw [← t4]; exact mem k3 (by simp)
  · rw [← t7]; exact mem k3 (by simp)

/-- `--arch arm64-aarch32` and `--arch x32` -/
example : (⟨cs!"x86-64-x32", [cs!"x32"], .x86, false, false, cs!"x32"⟩ : HelpRow) ∈ helpTable ∧
    (archFromName cs!"x32" [5, 10]).map (fun a => ((a.adjustAbi sampleX86Elf).tableName, a.numBase)) =
      .ok (some cs!"x32_sys_call_table", 0x40000000) ∧
    (archFromName cs!"x64" [6, 10]).map (fun a => (a.adjustAbi sampleX86Elf).tableName) = .ok none := by
  refine ⟨by simp [helpTable], by decide +kernel, by decide +kernel⟩

/-- the run of `tiny_run`, in JSON -/
example : (main (tinyWorld cs!"6.0.3" tinySymbols) [] { vmlinux := some cs!"vmlinux", format := .json } {}).1 = .ok 0 ∧
    ¬ BuildMode { vmlinux := some cs!"vmlinux", format := .json } ∧ ¬ AsksForHelp { vmlinux := some cs!"vmlinux", format := .json } := by
  refine ⟨by decide +kernel, ?_, ?_⟩
  · simp [BuildMode]
  · rintro ⟨a, h, -⟩
    cases h

end Verif
