import Verif.Lemmas.Record
import Verif.Props.Diag
/-! # The complete record of an extraction (C109) -/
set_option autoImplicit false

namespace Verif
open Spec

/-- C109, extractions that find entries: everything shown, in order, with levels. -/
theorem C109_record (sh : Symbol → Str) (a0 : Arch) (e : Elf) (v : Ver) (env : KEnv) (entries : List (Nat × Nat)) (out : List Syscall)
    (hb : a0.bits32 = e.bits32) (he : tableEntries (a0.adjustAbi e) e env = .ok entries) (hne : entries ≠ []) (hni : ∃ s, IsNi e s)
    (h : extractSyscalls a0 e v env = .ok out) :
    let chosen := fun va => dget va (symbolsByVaddr (a0.adjustAbi e) e (env.niOrder e.niSyscalls) (entries.map Prod.snd))
    ∃ cands located signed table counts prefixes,
      candidateSyscalls (a0.adjustAbi e) e v (env.niOrder e.niSyscalls) entries = .ok cands ∧
      env.locate cands = .ok located ∧ extractSignatures env.files e env.kdir.isSome located = .ok signed ∧
      out = signed.filter (fun sc => !inSysNi env.kdir sc) ∧
      EntriesSaid (a0.adjustAbi e) e env entries table ∧
      IsRepeated e chosen (entries.map Prod.snd) counts ∧
      SaidPrefixes (implementedNames e chosen entries) prefixes ∧
      said (extractL sh a0 e v env).1 =
        table ++ (counts.map fun c => saidRepeated sh chosen c.1 c.2) ++ prefixes ++
        (signed.filter (inSysNi env.kdir)).map (saidNotImplemented env.kdir) ++
        (out.filter fun sc => unconfirmed sc && env.kdir.isSome).map (saidBadLocation env.kdir) ++
        (out.filter fun sc => sc.file.isNone && tellsLocations e).map saidNoLocation ++
        (out.filter fun sc => sc.signature.isNone && tellsSignatures e).map saidNoSignature := by
  intro chosen
  have hni' : e.niSyscalls ≠ [] := by
    obtain ⟨s, hs⟩ := hni
    intro h0
    rw [IsNi, ← mem_niSyscalls, h0] at hs
    cases hs
  obtain ⟨cands, located, signed, hx⟩ := extraction_of_ok a0 e v env entries out hb he hne hni' h
  obtain ⟨pre, hpre, hcl⟩ := candidatesL_prefixes sh _ e v _ entries cands hx.cands_ok
  have hout : out = signed.filter (fun sc => !inSysNi env.kdir sc) := by
    have h1 := finalL_snd env.kdir e signed
    rw [finalL_eq, hx.out_ok] at h1
    exact (Except.ok.inj h1).symm
  obtain ⟨cs, hcs, hsaid⟩ := repeated_said sh e (symbolsByVaddr (a0.adjustAbi e) e (env.niOrder e.niSyscalls) (entries.map Prod.snd)) (entries.map Prod.snd)
  refine ⟨cands, located, signed, _, cs, _, hx.cands_ok, hx.located_ok, hx.signed_ok, hout, entries_said _ e env entries he, hcs, hpre, ?_⟩
  have hun : unresolvedCalls (a0.adjustAbi e).tableName (symbolsByVaddr (a0.adjustAbi e) e (env.niOrder e.niSyscalls) (entries.map Prod.snd)) entries = [] := by
    obtain ⟨ps, eso, esoScs, ref, code, hc⟩ := candidates_of_ok _ _ _ _ _ _ hx.cands_ok
    have hcount := hc.count
    rw [← (sortEntries_perm entries).length_eq, resolved_length_eq] at hcount
    unfold unresolvedCalls
    rw [List.filter_eq_nil_iff.2, List.map_nil]
    intro p hp
    have := hcount p hp
    cases hg : dget p.2 (symbolsByVaddr (a0.adjustAbi e) e (env.niOrder e.niSyscalls) (entries.map Prod.snd)) with
    | none => simp [hg] at this
    | some s => simp
  rw [extractL_fst sh a0 e v env entries out cands located signed hb he hne hni' hx, hcl, finalL_eq, ← hout, hun]
  simp only [said_append, hsaid, assume_said, bad_said, noLoc_said, noSig_said, List.append_assoc, List.nil_append]
  rfl

/-- C109, whatever the outcome: entries without symbol are told about before anything else is done with them. (By C36 the
extraction then fails.) -/
theorem C109_unresolved (sh : Symbol → Str) (a0 : Arch) (e : Elf) (v : Ver) (env : KEnv) (entries : List (Nat × Nat))
    (hb : a0.bits32 = e.bits32) (he : tableEntries (a0.adjustAbi e) e env = .ok entries) (hne : entries ≠ []) (hni : ∃ s, IsNi e s) :
    let chosen := fun va => dget va (symbolsByVaddr (a0.adjustAbi e) e (env.niOrder e.niSyscalls) (entries.map Prod.snd))
    ∃ table counts us rest, EntriesSaid (a0.adjustAbi e) e env entries table ∧
      IsRepeated e chosen (entries.map Prod.snd) counts ∧ IsUnresolved chosen entries us ∧
      said (extractL sh a0 e v env).1 = table ++ (counts.map fun c => saidRepeated sh chosen c.1 c.2) ++
        (us.map fun u => saidUnresolved (a0.adjustAbi e).tableName u.1 u.2) ++ rest := by
  intro chosen
  have hni' : e.niSyscalls.isEmpty = false := by
    obtain ⟨s, hs⟩ := hni
    cases h0 : e.niSyscalls with
    | nil => rw [IsNi, ← mem_niSyscalls, h0] at hs; cases hs
    | cons => rfl
  have h1 : entries.isEmpty = false := by cases entries with | nil => exact absurd rfl hne | cons => rfl
  obtain ⟨cs, hcs, hsaid⟩ := repeated_said sh e (symbolsByVaddr (a0.adjustAbi e) e (env.niOrder e.niSyscalls) (entries.map Prod.snd)) (entries.map Prod.snd)
  obtain ⟨us, hus, hsaidu⟩ := unresolved_said (a0.adjustAbi e).tableName (symbolsByVaddr (a0.adjustAbi e) e (env.niOrder e.niSyscalls) (entries.map Prod.snd)) entries
  obtain ⟨l, hl⟩ := candidatesL_prefix sh (a0.adjustAbi e) e v (env.niOrder e.niSyscalls) entries
  refine ⟨said (tableEntriesL (a0.adjustAbi e) e env).1, cs, us, ?_⟩
  unfold extractL
  rw [if_neg (by simpa using hb)]
  simp only
  rw [lm_bind_fst _ _ entries (by rw [tableEntriesL_snd]; exact he)]
  simp only [h1, hni', Bool.false_eq_true, if_false]
  cases hc : (candidatesL sh (a0.adjustAbi e) e v (env.niOrder e.niSyscalls) entries).2 with
  | error x =>
    refine ⟨said l, entries_said _ e env entries he, hcs, hus, ?_⟩
    show said (_ ++ (LM.bind _ _).1) = _
    unfold LM.bind
    rw [hc]
    simp only [hl, said_append, hsaid, hsaidu, List.append_assoc]
    rfl
  | ok cands =>
    rw [lm_bind_fst _ _ cands hc]
    generalize (LM.lift (env.locate cands) >>= _ : LM (List Syscall)).1 = r
    refine ⟨said (l ++ r), entries_said _ e env entries he, hcs, hus, ?_⟩
    simp only [hl, said_append, hsaid, hsaidu, List.append_assoc]
    rfl

/-- C109, extractions that find nothing to start from: an image of the wrong kind, no entries, no ni_syscall. -/
theorem C109_given_up (sh : Symbol → Str) (a0 : Arch) (e : Elf) (v : Ver) (env : KEnv) :
    (a0.bits32 ≠ e.bits32 → said (extractL sh a0 e v env).1 =
      [(.critical, some (if a0.bits32 then cs!"Selected arch is 32-bit, but kernel is 64-bit"
        else cs!"Selected arch is 64-bit, but kernel is 32-bit"))]) ∧
    (a0.bits32 = e.bits32 → tableEntries (a0.adjustAbi e) e env = .ok [] →
      ∃ table, EntriesSaid (a0.adjustAbi e) e env [] table ∧
        said (extractL sh a0 e v env).1 = table ++ [(.critical, some cs!"Unable to extract any syscall vaddr, giving up!")]) ∧
    (∀ entries, a0.bits32 = e.bits32 → tableEntries (a0.adjustAbi e) e env = .ok entries → entries ≠ [] → (∀ s, ¬ IsNi e s) →
      ∃ table, EntriesSaid (a0.adjustAbi e) e env entries table ∧
        said (extractL sh a0 e v env).1 = table ++ [(.critical, some cs!"No ni_syscall found!")]) := by
  refine ⟨?_, ?_, ?_⟩
  · intro hb
    unfold extractL
    rw [if_pos hb]
    unfold bitsCall
    cases a0.bits32 <;> rfl
  · intro hb he
    refine ⟨_, entries_said _ e env _ he, ?_⟩
    unfold extractL
    rw [if_neg (by simpa using hb)]
    simp only
    rw [lm_bind_fst _ _ [] (by rw [tableEntriesL_snd]; exact he), said_append]
    rfl
  · intro entries hb he hne hni
    refine ⟨_, entries_said _ e env _ he, ?_⟩
    have h1 : entries.isEmpty = false := by cases entries with | nil => exact absurd rfl hne | cons => rfl
    have h2 : e.niSyscalls.isEmpty = true := by
      cases h0 : e.niSyscalls with
      | nil => rfl
      | cons s ss => exact absurd ((mem_niSyscalls e s).1 (by rw [h0]; simp)) (hni s)
    unfold extractL
    rw [if_neg (by simpa using hb)]
    simp only
    rw [lm_bind_fst _ _ entries (by rw [tableEntriesL_snd]; exact he), said_append]
    simp only [h1, h2, Bool.false_eq_true, if_false, if_true]
    rfl

/-! Examples -/

/-- the hypotheses of `C109_record` hold, and the whole record is -/
example : ∃ a0 entries, newArch .riscv [6, 0] cs!"rv64" false = .ok a0 ∧
    a0.bits32 = (smallElf [0x100, 0x108, 0x110, 0x110]).bits32 ∧
    tableEntries (a0.adjustAbi (smallElf [0x100, 0x108, 0x110, 0x110])) (smallElf [0x100, 0x108, 0x110, 0x110]) guessEnv = .ok entries ∧
    entries.map Prod.snd = [0x100, 0x108, 0x110, 0x110] ∧ (smallElf [0x100, 0x108, 0x110, 0x110]).niSyscalls.length = 1 ∧
    (extractSyscalls a0 (smallElf [0x100, 0x108, 0x110, 0x110]) [6, 0] guessEnv).map (fun l => l.map Syscall.number) = .ok [2, 3] ∧
    said (extractL Symbol.name a0 (smallElf [0x100, 0x108, 0x110, 0x110]) [6, 0] guessEnv).1 =
      [(.warning, some cs!"Syscall table (sys_call_table) has bad size (0), doing my best to figure out when to stop"),
       (.warning, some cs!"Interesting! Vaddr found 2 times: __riscv_sys_read"),
       (.warning, some cs!"No common syscall symbol prefixes found (weird!)"),
       (.warning, some cs!"Assuming __riscv_sys_open is not implemented as it points to kernel/sys_ni.c:11 after adjustments"),
       (.warning, some cs!"Potentially bad location for __riscv_sys_read (__riscv_sys_read): arch/entry.S:12 (implemented in asm?)"),
       (.warning, some cs!"Potentially bad location for __riscv_sys_read (__riscv_sys_read): arch/entry.S:13 (implemented in asm?)")] :=
  ⟨_, _, rfl, rfl, rfl, by decide +kernel, by decide +kernel, by decide +kernel, by decide +kernel⟩

/-- the hypotheses of `C109_unresolved` hold of a table with an address in .text without symbol -/
example : ∃ a0 entries, newArch .riscv [6, 0] cs!"rv64" false = .ok a0 ∧
    a0.bits32 = (smallElf [0x100, 0x108, 0x118]).bits32 ∧
    tableEntries (a0.adjustAbi (smallElf [0x100, 0x108, 0x118])) (smallElf [0x100, 0x108, 0x118]) plainEnv = .ok entries ∧
    entries.map Prod.snd = [0x100, 0x108, 0x118] ∧ (smallElf [0x100, 0x108, 0x118]).niSyscalls.length = 1 ∧
    extractSyscalls a0 (smallElf [0x100, 0x108, 0x118]) [6, 0] plainEnv = .error .assertion ∧
    said (extractL Symbol.name a0 (smallElf [0x100, 0x108, 0x118]) [6, 0] plainEnv).1 =
      [(.warning, some cs!"Syscall table (sys_call_table) has bad size (0), doing my best to figure out when to stop"),
       (.error, some cs!"Unable to find symbol for sys_call_table[2]: 0x118"),
       (.warning, some cs!"No common syscall symbol prefixes found (weird!)")] :=
  ⟨_, _, rfl, rfl, rfl, by decide +kernel, by decide +kernel, by decide +kernel, by decide +kernel⟩

/-- each case of `C109_given_up` occurs -/
example : ∃ a0 a1 entries, newArch .riscv [6, 0] cs!"rv32" false = .ok a0 ∧ newArch .riscv [6, 0] cs!"rv64" false = .ok a1 ∧
    tableEntries (a0.adjustAbi (smallElf [0x100])) (smallElf [0x100]) plainEnv = .ok [] ∧
    tableEntries (a1.adjustAbi { smallElf [0x100, 0x108] with functions := [] }) { smallElf [0x100, 0x108] with functions := [] } plainEnv = .ok entries ∧
    entries ≠ [] ∧
    said (extractL Symbol.name a0 (smallElf [0x100]) [6, 0] plainEnv).1 =
      [(.critical, some cs!"Unable to find compat_sys_call_table symbol!"), (.critical, some cs!"Unable to extract any syscall vaddr, giving up!")] ∧
    said (extractL Symbol.name a1 { smallElf [0x100, 0x108] with functions := [] } [6, 0] plainEnv).1 =
      [(.warning, some cs!"Syscall table (sys_call_table) has bad size (0), doing my best to figure out when to stop"),
       (.critical, some cs!"No ni_syscall found!")] ∧
    said (extractL Symbol.name a1 { smallElf [0x100] with bits32 := true } [6, 0] plainEnv).1 =
      [(.critical, some cs!"Selected arch is 64-bit, but kernel is 32-bit")] :=
  ⟨_, _, _, rfl, rfl, by decide +kernel, rfl, by decide +kernel, by decide +kernel, by decide +kernel, by decide +kernel⟩

/-- a table with a descriptor that points outside .text -/
example : ∃ a, newArch .powerpc [6, 0] cs!"ppc64" false = .ok a ∧
    vaddrsFromTable a { descriptorElf with data := encTable true 8 [0x210, 0] ++ encTable true 8 [0x304, 0x7777, 0] } cs!"sys_call_table" = .ok [0x304] ∧
    said (vaddrsFromTableL a { descriptorElf with data := encTable true 8 [0x210, 0] ++ encTable true 8 [0x304, 0x7777, 0] } cs!"sys_call_table").1 =
      [(.warning, some cs!"Syscall table (sys_call_table) has bad size (0), doing my best to figure out when to stop"),
       (.warning, some cs!"Function descriptor at 0x210 points outside .text: something is off!")] :=
  ⟨_, rfl, by decide +kernel, by decide +kernel⟩

end Verif
