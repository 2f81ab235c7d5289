import Verif.Lemmas.Arch
/-! # C23-C28: architectures -/
set_option autoImplicit false

namespace Verif
open Spec

/-! ## C23 -/

/-- C23: a `_time32` or `_time64` suffix makes no difference, on every architecture and ABI. -/
theorem C23_time_suffix (a : Arch) (n : Str) (h32 : ¬ cs!"_time32" <:+ n) (h64 : ¬ cs!"_time64" <:+ n) :
    a.normalizeName (n ++ cs!"_time32") = a.normalizeName n ∧
    a.normalizeName (n ++ cs!"_time64") = a.normalizeName n := by
  simp only [normalizeName_eq, (stripTime_suffix n h32 h64).1, (stripTime_suffix n h32 h64).2, and_self]

/-- C23: a name ending in `time` followed by 32 or 64 loses only the two digits. -/
theorem C23_time_digits (a : Arch) (n : Str) (h : cs!"time" <:+ n) (hn : ¬ cs!"_time" <:+ n) :
    a.normalizeName (n ++ cs!"32") = a.normalizeName n ∧
    a.normalizeName (n ++ cs!"64") = a.normalizeName n ∧
    (NoSourcePrefix a n → a.normalizeName n = n) := by
  obtain ⟨h1, h2, h3⟩ := stripTime_digits n h hn
  simp only [normalizeName_eq, h1, h2, h3, true_and]
  exact normalizeTail_none a n

/-- C23: a name with none of the listed prefixes and suffixes is unchanged. -/
theorem C23_plain_unchanged (a : Arch) (n : Str) (hp : NoSourcePrefix a n) (ht : NoTimeSuffix n) :
    a.normalizeName n = n := by
  rw [normalizeName_eq, stripTime_none n ht, normalizeTail_none a n hp]

/-- C23: with `C23_time_suffix`, the whole of a plain name comes back. -/
theorem C23_time_suffix_plain (a : Arch) (n : Str) (hp : NoSourcePrefix a n) (ht : NoTimeSuffix n) :
    a.normalizeName (n ++ cs!"_time32") = n ∧ a.normalizeName (n ++ cs!"_time64") = n := by
  have h := C23_time_suffix a n
    (fun hs => ht.1 (List.IsSuffix.trans (List.suffix_append ['_'] cs!"time32") hs))
    (fun hs => ht.2 (List.IsSuffix.trans (List.suffix_append ['_'] cs!"time64") hs))
  rw [C23_plain_unchanged a n hp ht] at h
  exact h

/-- C23: the source prefixes are removed from a plain name, `old_` and `32_`/`sys32_` on every architecture. -/
theorem C23_prefix_removed (a : Arch) (n p : Str) (hp : NoSourcePrefix a n) (ht : NoTimeSuffix n)
    (hpt : NoTimeSuffix (p ++ n)) (hin : p ∈ [cs!"32_", cs!"sys32_", cs!"old_"] ++ sourcePrefixes a.kind a.abi) :
    a.normalizeName (p ++ n) = n := by
  have tail := normalizeTail_none a n hp
  have np : ∀ q r : Str, ¬ q <+: r → ∀ s, ¬ r <+: q → ¬ q <+: r ++ s := by
    intro q r h s h' hc
    rcases List.prefix_or_prefix_of_prefix hc (List.prefix_append r s) with h1 | h1
    · exact h h1
    · exact h' h1
  have step : ∀ q r : Str, ¬ q <+: r → ¬ r <+: q → ∀ s ps, noprefix (r ++ s) (q :: ps) = noprefix (r ++ s) ps :=
    fun q r h h' s ps => noprefix_skip _ _ _ (np q r h s h')
  have m1 : ∀ q ∈ [cs!"32_", cs!"sys32_", cs!"old_"] ++ sourcePrefixes a.kind a.abi, ¬ q <+: n := hp
  have o1 : noprefix n [cs!"old_"] = n := noprefix_none (by intro q hq; apply m1; simp at hq; subst hq; simp)
  have o2 := normalizeArch_none a n fun q hq => m1 q (by simp [hq])
  rw [normalizeName_eq, stripTime_none _ hpt]
  rw [List.mem_append] at hin
  rcases hin with hin | hin
  · simp only [List.mem_cons, List.not_mem_nil, or_false] at hin
    rcases hin with rfl | rfl | rfl
    · simp only [Arch.normalizeTail]
      rw [noprefix_hit, o1, o2]
    · simp only [Arch.normalizeTail]
      rw [step _ _ (by decide) (by decide), noprefix_hit, o1, o2]
    · simp only [Arch.normalizeTail]
      rw [step _ _ (by decide) (by decide), step _ _ (by decide) (by decide)]
      simp only [noprefix.eq_1]
      rw [noprefix_hit, o2]
  · simp only [Arch.normalizeTail]
    unfold sourcePrefixes at hin
    unfold Arch.normalizeArch at o2 ⊢
    unfold sourcePrefixes at m1
    cases hk : a.kind <;> simp only [hk] at hin o2 m1 ⊢
    case arm =>
      by_cases ho : a.abi = cs!"oabi"
      · simp only [ho, if_true] at hin o2 m1 ⊢
        simp only [List.mem_cons, List.not_mem_nil, or_false] at hin
        rcases hin with rfl | rfl
        · rw [step _ _ (by decide) (by decide), step _ _ (by decide) (by decide)]
          simp only [noprefix.eq_1]
          rw [step _ _ (by decide) (by decide)]
          simp only [noprefix.eq_1]
          rw [noprefix_hit]
          exact noprefix_none (by intro q hq; apply m1; simp at hq; subst hq; simp)
        · rw [step _ _ (by decide) (by decide), step _ _ (by decide) (by decide)]
          simp only [noprefix.eq_1]
          rw [step _ _ (by decide) (by decide)]
          simp only [noprefix.eq_1]
          rw [step _ _ (by decide) (by decide)]
          simp only [noprefix.eq_1]
          rw [noprefix_hit]
      · simp only [if_neg ho] at hin o2 m1 ⊢
        simp only [List.mem_cons, List.not_mem_nil, or_false] at hin
        subst hin
        rw [step _ _ (by decide) (by decide), step _ _ (by decide) (by decide)]
        simp only [noprefix.eq_1]
        rw [step _ _ (by decide) (by decide)]
        simp only [noprefix.eq_1]
        rw [noprefix_hit]
    case riscv => simp at hin
    all_goals
      simp only [List.mem_cons, List.not_mem_nil, or_false] at hin
      rcases hin with rfl | hin
      · rw [step _ _ (by decide) (by decide), step _ _ (by decide) (by decide)]
        simp only [noprefix.eq_1]
        rw [step _ _ (by decide) (by decide)]
        simp only [noprefix.eq_1]
        rw [noprefix_hit]
      rcases hin with rfl | hin
      · rw [step _ _ (by decide) (by decide), step _ _ (by decide) (by decide)]
        simp only [noprefix.eq_1]
        rw [step _ _ (by decide) (by decide)]
        simp only [noprefix.eq_1]
        rw [step _ _ (by decide) (by decide), noprefix_hit]
      all_goals
        subst hin
        rw [step _ _ (by decide) (by decide), step _ _ (by decide) (by decide)]
        simp only [noprefix.eq_1]
        rw [step _ _ (by decide) (by decide)]
        simp only [noprefix.eq_1]
        rw [step _ _ (by decide) (by decide), step _ _ (by decide) (by decide), noprefix_hit]

/-- sample objects used in the examples -/
def sampleX64 : Arch := { kind := .x86, version := [5, 18], abi := cs!"x64", bits32 := false }
def sampleOabi : Arch := { kind := .arm, version := [5, 18], abi := cs!"oabi", bits32 := true }

instance (a : Arch) (n : Str) : Decidable (NoSourcePrefix a n) := by unfold NoSourcePrefix; infer_instance
instance (n : Str) : Decidable (NoTimeSuffix n) := by unfold NoTimeSuffix; infer_instance

example : ¬ cs!"_time32" <:+ cs!"recvmmsg" ∧ ¬ cs!"_time64" <:+ cs!"recvmmsg" ∧
    sampleX64.normalizeName cs!"recvmmsg_time32" = cs!"recvmmsg" := by decide
example : cs!"time" <:+ cs!"clock_adjtime" ∧ ¬ cs!"_time" <:+ cs!"clock_adjtime" ∧
    sampleX64.normalizeName cs!"clock_adjtime32" = cs!"clock_adjtime" := by decide
example : NoSourcePrefix sampleOabi cs!"semop" ∧ NoTimeSuffix cs!"semop" ∧ NoTimeSuffix cs!"oabi_semop" ∧
    cs!"oabi_" ∈ [cs!"32_", cs!"sys32_", cs!"old_"] ++ sourcePrefixes sampleOabi.kind sampleOabi.abi ∧
    sampleOabi.normalizeName cs!"oabi_semop" = cs!"semop" := by decide

/-! ## C24 -/

/-- C24: at most one class matches an ELF. -/
theorem C24_at_most_one_class (e : Elf) (k k' : Kind) (m m' : Bool × List Str)
    (h : k.match e = .ok (some m)) (h' : k'.match e = .ok (some m')) : k = k' := by
  obtain ⟨b, hb⟩ := match_machine k e (by simp [h])
  obtain ⟨b', hb'⟩ := match_machine k' e (by simp [h'])
  exact (machine_unique hb hb').1

/-- C24: detection does not depend on the order in which the classes are tried. -/
theorem C24_order_irrelevant (e : Elf) (ks : List Kind) (h : ∀ k, k ∈ ks) :
    archFromVmlinuxGo e ks = archFromVmlinux e := by
  by_cases hex : ∃ k : Kind, k.match e ≠ .ok none
  · obtain ⟨k, hk⟩ := hex
    rw [archFromVmlinux, go_some e ks k (h k) hk, go_some e archClasses k (mem_archClasses k) hk]
  · have hall : ∀ k : Kind, k.match e = .ok none := fun k => Classical.byContradiction fun hne => hex ⟨k, hne⟩
    rw [archFromVmlinux, go_none e ks fun k _ => hall k, go_none e archClasses fun k _ => hall k]

/-- C24: the class detected is the one of the machine number and ELF class in the ELF standard, and the
bitness is that of the ELF; an ELF of no supported machine is reported as unsupported. -/
theorem C24_detection (e : Elf) :
    (∀ k b abis, archFromVmlinux e = .ok (some (k, b, abis)) ↔ IsFor k e ∧ k.match e = .ok (some (b, abis))) ∧
    (∀ k b abis, archFromVmlinux e = .ok (some (k, b, abis)) → b = e.bits32) ∧
    (archFromVmlinux e = .ok none ↔ ∀ k b, (e.machine, k, b) ∉ machineTable) := by
  have key : ∀ k b abis, archFromVmlinux e = .ok (some (k, b, abis)) ↔ IsFor k e ∧ k.match e = .ok (some (b, abis)) := by
    intro k b abis
    constructor
    · intro h
      by_cases hex : ∃ k' : Kind, k'.match e ≠ .ok none
      · obtain ⟨k', hk'⟩ := hex
        rw [archFromVmlinux, go_some e archClasses k' (mem_archClasses k') hk'] at h
        cases hm : k'.match e with
        | error x => rw [hm] at h; simp [Except.map] at h
        | ok r =>
          cases r with
          | none => exact absurd hm hk'
          | some m =>
            rw [hm] at h
            simp only [Except.map, Option.map, Except.ok.injEq, Option.some.injEq, Prod.mk.injEq] at h
            obtain ⟨rfl, rfl⟩ := h
            exact ⟨(match_isFor k' e).1 ⟨_, hm⟩, hm⟩
      · rw [archFromVmlinux, go_none e archClasses fun k _ => Classical.byContradiction fun hne => hex ⟨k, hne⟩] at h
        simp at h
    · rintro ⟨-, h⟩
      rw [archFromVmlinux, go_some e archClasses k (mem_archClasses k) (by simp [h]), h]
      rfl
  refine ⟨key, fun k b abis h => match_bits k e b abis ((key k b abis).1 h).2, ?_⟩
  constructor
  · intro h k b hb
    have h1 := match_of_machine k e b hb
    have hne : k.match e ≠ .ok none := by
      intro hn
      match b, h1 with
      | none, h1 =>
        obtain ⟨abis, ha⟩ := h1.1 (Or.inl rfl)
        rw [ha] at hn; simp at hn
      | some c, h1 =>
        by_cases hc : c = e.bits32
        · obtain ⟨abis, ha⟩ := h1.1 (Or.inr (by rw [hc]))
          rw [ha] at hn; simp at hn
        · have := h1.2 (by congr 1; revert hc; cases c <;> cases e.bits32 <;> decide)
          rw [this] at hn; simp at hn
    rw [archFromVmlinux, go_some e archClasses k (mem_archClasses k) hne] at h
    cases hm : k.match e with
    | error x => rw [hm] at h; simp [Except.map] at h
    | ok r =>
      cases r with
      | none => exact absurd hm hne
      | some m => rw [hm] at h; simp [Except.map] at h
  · intro h
    refine go_none e archClasses fun k _ => Classical.byContradiction fun hne => ?_
    obtain ⟨b, hb⟩ := match_machine k e hne
    exact h k b hb

/-- C24: the ABIs detected are exactly those the symbols of the kernel witness (ARM is C26). -/
theorem C24_abis (e : Elf) (k : Kind) (b : Bool) (abis : List Str) (hk : k ≠ .arm)
    (h : archFromVmlinux e = .ok (some (k, b, abis))) (abi : Str) : abi ∈ abis ↔ AbiPresent k e abi := by
  obtain ⟨hf, h⟩ := ((C24_detection e).1 k b abis).1 h
  rw [match_detected k e hf] at h
  simp only [Except.ok.injEq, Option.some.injEq, Prod.mk.injEq] at h
  rw [← h.2]
  exact mem_detected k e hk abi

/-- C24: at least one ABI is detected. -/
theorem C24_some_abi (e : Elf) (k : Kind) (b : Bool) (abis : List Str)
    (h : archFromVmlinux e = .ok (some (k, b, abis))) : abis ≠ [] := by
  obtain ⟨hf, h⟩ := ((C24_detection e).1 k b abis).1 h
  rw [match_detected k e hf] at h
  simp only [Except.ok.injEq, Option.some.injEq, Prod.mk.injEq] at h
  rw [← h.2]
  cases k <;> simp only [detected] <;> (try split) <;> simp

/-- C24: each ABI detected can be instantiated for a kernel that is recent enough, and the object then accepts
the ELF (PowerPC objects accept only big-endian kernels, see C25). -/
theorem C24_instance_matches (e : Elf) (k : Kind) (b : Bool) (abis : List Str) (abi : Str) (v : Ver)
    (h : archFromVmlinux e = .ok (some (k, b, abis))) (habi : abi ∈ abis)
    (hv : minVersion k abi b ≤ v) (hend : k = .powerpc → e.bigEndian = true) :
    ∃ a, newArch k v abi b = .ok a ∧ a.kind = k ∧ a.abi = abi ∧ a.version = v ∧ a.bits32 = b ∧
      a.matches e = .ok true := by
  obtain ⟨hf, h⟩ := ((C24_detection e).1 k b abis).1 h
  rw [match_detected k e hf] at h
  simp only [Except.ok.injEq, Option.some.injEq, Prod.mk.injEq] at h
  obtain ⟨rfl, rfl⟩ := h
  obtain ⟨row, hr, rfl, rfl, hb⟩ := detected_row k e hf abi habi
  rw [← hb] at hv ⊢
  obtain ⟨a, ha, h1, h2, h3, h4, h5, h6⟩ := (newArch_row row hr v).1 ((verLe_iff _ _).2 hv)
  refine ⟨a, ha, h1, h2, h5, h3, ?_⟩
  obtain ⟨m, c, hc, hm, hd⟩ := hf
  simp only [machineTable, List.mem_cons, Prod.mk.injEq, List.not_mem_nil, or_false] at hc
  rcases hc with ⟨rfl, hk, rfl⟩ | ⟨rfl, hk, rfl⟩ | ⟨rfl, hk, rfl⟩ | ⟨rfl, hk, rfl⟩ | ⟨rfl, hk, rfl⟩ |
    ⟨rfl, hk, rfl⟩ | ⟨rfl, hk, rfl⟩ | ⟨rfl, hk, rfl⟩ <;>
  simp [Arch.matches, h1, hk, hm, h3, hb, EM_ARM, EM_AARCH64, EM_MIPS, EM_PPC, EM_PPC64, EM_RISCV, EM_386, EM_X86_64,
    bind, Except.bind, pyAssert] at hd hend ⊢ <;> simp [← hd, hend]

/-- a 64-bit x86 ELF with the table of the 32-bit ABI -/
def sampleX86Elf : Elf :=
  { data := [], bits32 := false, bigEndian := false, machine := 62, eflags := 0,
    sections := [], symbols := [(cs!"ia32_sys_call_table", ⟨0x1000, 0x1000, 64, cs!"OBJECT", cs!"ia32_sys_call_table"⟩)],
    functions := [] }

example : archFromVmlinux sampleX86Elf = .ok (some (.x86, false, [cs!"x64", cs!"ia32"])) ∧
    minVersion .x86 cs!"ia32" false ≤ [5, 18] := by
  refine ⟨by decide, (verLe_iff _ _).1 (by decide)⟩

/-! ## C25 -/

/-- a little-endian 64-bit PowerPC ELF -/
def samplePpc64le : Elf :=
  { data := [], bits32 := false, bigEndian := false, machine := 21, eflags := 2, sections := [], symbols := [],
    functions := [] }

def samplePpc64 : Arch := { kind := .powerpc, version := [5, 18], abi := cs!"ppc64", bits32 := false }

/-- C25 is false: a little-endian PowerPC kernel is detected as PowerPC, and then crashes the comparison. -/
theorem C25_refuted : ∃ (a : Arch) (e : Elf) (abis : List Str),
    archFromVmlinux e = .ok (some (.powerpc, false, abis)) ∧
    newArch .powerpc [5, 18] cs!"ppc64" false = .ok a ∧ a.matches e = .error .assertion := by
  refine ⟨_, samplePpc64le, [cs!"ppc64"], by decide, rfl, by decide⟩

private theorem em_decide (p : Prop) [Decidable p] :
    (decide p = true ∧ p) ∨ (decide p = false ∧ ¬ p) := by by_cases h : p <;> simp [h]

/-- C25 (partial: the full claim has no hypothesis about PowerPC endianness). The comparison is a boolean: right
machine for the kernel bitness, and right ELF class. -/
theorem C25_matches_partial (a : Arch) (e : Elf) (h : a.kind = .powerpc → e.bigEndian = true)
    (h1 : a.kind = .arm → a.bits32 = true) (h2 : a.kind = .arm64 → a.bits32 = false) :
    (a.matches e = .ok true ∧ e.bits32 = a.bits32 ∧ IsFor a.kind e) ∨
    (a.matches e = .ok false ∧ ¬ (e.bits32 = a.bits32 ∧ IsFor a.kind e)) := by
  have tab : ∀ k, IsFor k e ↔ ∃ x ∈ machineTable, x.2.1 = k ∧ e.machine = x.1 ∧ (x.2.2 = none ∨ x.2.2 = some e.bits32) := by
    intro k
    constructor
    · rintro ⟨m, b, h, h1, h2⟩; exact ⟨_, h, rfl, h1, h2⟩
    · rintro ⟨⟨m, k, b⟩, h, rfl, h1, h2⟩; exact ⟨m, b, h, h1, h2⟩
  cases hk : a.kind <;> cases hb : e.bits32 <;> cases ha : a.bits32 <;>
    simp [tab, machineTable, hk, hb, ha, Arch.matches, EM_ARM, EM_AARCH64, EM_MIPS, EM_PPC, EM_PPC64, EM_RISCV, EM_386,
      EM_X86_64, bind, Except.bind, pyAssert] at h h1 h2 ⊢ <;>
    (try simp [h]) <;> first | exact Classical.em _ | exact em_decide _

example : (samplePpc64.kind = .powerpc → { samplePpc64le with bigEndian := true }.bigEndian = true) ∧
    samplePpc64.matches { samplePpc64le with bigEndian := true } = .ok true := by decide

/-! ## C26 -/

/-- an ARM ELF of an EABI kernel (EF_ARM_EABI_VER5) without the table for the old ABI -/
def sampleArmElf : Elf :=
  { data := [], bits32 := true, bigEndian := false, machine := 40, eflags := 0x05000000, sections := [],
    symbols := [(cs!"sys_call_table", ⟨0x1000, 0x1000, 64, cs!"OBJECT", cs!"sys_call_table"⟩)], functions := [] }

/-- C26 is false: a kernel marked EABI by its ELF flags, without the OABI table, is reported as OABI. -/
theorem C26_refuted : ∃ (e : Elf) (abis : List Str), e.eflags &&& 0xff000000 ≠ 0 ∧
    ¬ HasSym e cs!"sys_oabi_call_table" ∧ archFromVmlinux e = .ok (some (.arm, true, abis)) ∧
    ¬ (cs!"eabi" ∈ abis ↔ AbiPresent .arm e cs!"eabi") := by
  refine ⟨sampleArmElf, [cs!"oabi"], by decide, ?_, by decide, ?_⟩
  · rw [← hasSymbol_iff]; decide
  · have h1 : cs!"eabi" ∉ [cs!"oabi"] := by decide
    have h2 : AbiPresent .arm sampleArmElf cs!"eabi" := by
      have h : ¬ (sampleArmElf.eflags &&& 0xff000000 = 0) := by decide
      simp only [AbiPresent, if_neg h]; exact Or.inl trivial
    exact fun hh => h1 (hh.2 h2)

/-- C26 (partial: the kernels without `sys_oabi_call_table` and with EABI flags are wrong, see above). With the
table, both ABIs; without, always only OABI; right whenever the table is there or the flags are not EABI. -/
theorem C26_abis_partial (e : Elf) (b : Bool) (abis : List Str) (h : archFromVmlinux e = .ok (some (.arm, b, abis))) :
    (HasSym e cs!"sys_oabi_call_table" → abis = [cs!"eabi", cs!"oabi"]) ∧
    (¬ HasSym e cs!"sys_oabi_call_table" → abis = [cs!"oabi"]) ∧
    (HasSym e cs!"sys_oabi_call_table" ∨ e.eflags &&& 0xff000000 = 0 →
      ∀ abi, abi ∈ abis ↔ AbiPresent .arm e abi) := by
  obtain ⟨hf, h⟩ := ((C24_detection e).1 .arm b abis).1 h
  rw [match_detected .arm e hf] at h
  simp only [Except.ok.injEq, Option.some.injEq, Prod.mk.injEq] at h
  have key : (HasSym e cs!"sys_oabi_call_table" → abis = [cs!"eabi", cs!"oabi"]) ∧
    (¬ HasSym e cs!"sys_oabi_call_table" → abis = [cs!"oabi"]) := by
    rw [← h.2]
    constructor
    · intro hs; simp only [detected, (hasSymbol_iff _ _).2 hs, if_true]
    · intro hs
      have : e.hasSymbol cs!"sys_oabi_call_table" = false := by
        cases hc : e.hasSymbol cs!"sys_oabi_call_table" with
        | false => rfl
        | true => exact absurd ((hasSymbol_iff _ _).1 hc) hs
      simp only [detected, this, Bool.false_eq_true, if_false]
  refine ⟨key.1, key.2, fun hor abi => ?_⟩
  by_cases hs : HasSym e cs!"sys_oabi_call_table"
  · rw [key.1 hs]
    simp only [AbiPresent, hs, and_true, List.mem_cons, List.not_mem_nil, or_false]
    split <;> exact Iff.rfl
  · rw [key.2 hs]
    have h0 := hor.resolve_left hs
    simp only [AbiPresent, h0, if_true, hs, and_false, false_or, List.mem_cons, List.not_mem_nil, or_false]

example : archFromVmlinux sampleArmElf = .ok (some (.arm, true, [cs!"oabi"])) := by decide

/-! ## C27 -/

/-- No alias is defined for a missing name (arch/__init__.py:77 cannot fail). -/
theorem supportedArchs_complete : ∀ p ∈ archAliases, dmem p.1 supportedBase = true := by decide +kernel

/-- names in the registry, as in the help -/
theorem supportedArchs_rows : ∀ row ∈ helpTable, ∀ n ∈ row.value :: row.aliases,
    dget n supportedArchs = some (row.kind, row.abi, row.kernel32) := by decide +kernel

/-- C27: for every row of the `--arch` help, the value and its aliases give the same result with every kernel
version: an object with the attributes in the help if the version is supported, else a failed assertion. -/
theorem C27_aliases (row : HelpRow) (h : row ∈ helpTable) (n : Str) (hn : n ∈ row.value :: row.aliases) (v : Ver) :
    archFromName n v = archFromName row.value v ∧
    (minVersion row.kind row.abi row.kernel32 ≤ v → ∃ a, archFromName n v = .ok a ∧ RowAttrs row v a) ∧
    (¬ minVersion row.kind row.abi row.kernel32 ≤ v → archFromName n v = .error .assertion) := by
  have e1 : archFromName n v = newArch row.kind v row.abi row.kernel32 := by
    simp only [archFromName, supportedArchs_rows row h n hn]
  have e2 : archFromName row.value v = newArch row.kind v row.abi row.kernel32 := by
    simp only [archFromName, supportedArchs_rows row h row.value (by simp)]
  obtain ⟨h1, h2⟩ := newArch_row row h v
  refine ⟨by rw [e1, e2], fun hv => ?_, fun hv => ?_⟩
  · obtain ⟨a, ha, hr⟩ := h1 ((verLe_iff _ _).2 hv); exact ⟨a, by rw [e1, ha], hr⟩
  · rw [e1]; apply h2
    cases hc : verLe (minVersion row.kind row.abi row.kernel32) v with
    | false => rfl
    | true => exact absurd ((verLe_iff _ _).1 hc) hv

/-- C27: the names accepted are exactly those in the help, and no name is in two rows. -/
theorem C27_names (n : Str) :
    (dmem n supportedArchs = true ↔ ∃ row ∈ helpTable, n ∈ row.value :: row.aliases) ∧
    (∀ v, archFromName n v = .error .key ↔ ¬ ∃ row ∈ helpTable, n ∈ row.value :: row.aliases) ∧
    (helpTable.flatMap fun row => row.value :: row.aliases).Nodup := by
  have hk : ∀ m ∈ supportedArchs.map Prod.fst, ∃ row ∈ helpTable, m ∈ row.value :: row.aliases := by decide +kernel
  have h1 : dmem n supportedArchs = true ↔ ∃ row ∈ helpTable, n ∈ row.value :: row.aliases := by
    rw [dmem, dget_isSome_iff]
    constructor
    · exact hk n
    · rintro ⟨row, hr, hn⟩
      rw [← dget_isSome_iff, supportedArchs_rows row hr n hn]; rfl
  refine ⟨h1, fun v => ?_, by decide +kernel⟩
  constructor
  · rintro he ⟨row, hr, hn⟩
    obtain ⟨-, h2, h3⟩ := C27_aliases row hr n hn v
    by_cases hv : minVersion row.kind row.abi row.kernel32 ≤ v
    · obtain ⟨a, ha, -⟩ := h2 hv; rw [ha] at he; simp at he
    · rw [h3 hv] at he; simp at he
  · intro hne
    rw [← h1, dmem] at hne
    simp only [archFromName]
    cases hd : dget n supportedArchs with
    | none => rfl
    | some x => simp [hd] at hne

example : (⟨cs!"mips64-o32", [cs!"o32-64"], .mips, false, true, cs!"o32"⟩ : HelpRow) ∈ helpTable ∧
    (archFromName cs!"o32-64" [5, 18]).map (fun a => (a.kind, a.abi, a.bits32, a.abiBits32, a.compat)) =
      .ok (.mips, cs!"o32", false, true, true) := by
  refine ⟨?_, by decide +kernel⟩
  simp [helpTable]

/-! ## C28 -/

/-- C28: the preferred symbol is one of the two. -/
theorem C28_one_of_two (ar : Arch) (a b : Symbol) : ar.preferredSymbol a b = a ∨ ar.preferredSymbol a b = b := by
  have hb : basePreferred a b = a ∨ basePreferred a b = b := by
    unfold basePreferred; repeat' split
    all_goals simp
  have hc : ∀ c x, preferCompat c a b = some x → x = a ∨ x = b := by
    intro c x h
    simp only [preferCompat] at h
    repeat' split at h
    all_goals simp_all
  unfold Arch.preferredSymbol x86Preferred ppcPreferred
  cases ar.kind <;> simp only
  case arm | mips | arm64 | riscv =>
    cases h : preferCompat ar.compat a b with
    | some x => exact hc _ _ h
    | none => simp only; repeat' split
              all_goals first | exact hb | simp
  all_goals
    repeat' split
    all_goals first | exact hb | simp

/-- C28: with exactly one compat symbol, that one is preferred iff a compat ABI is analysed, in both argument
orders. -/
theorem C28_compat (ar : Arch) (c n : Symbol) (hk : usesCompatWord ar.kind = true)
    (hc : cs!"compat" <:+: c.name) (hn : ¬ cs!"compat" <:+: n.name) :
    (ar.compat = true → ar.preferredSymbol c n = c ∧ ar.preferredSymbol n c = c) ∧
    (ar.compat = false → ar.preferredSymbol c n = n ∧ ar.preferredSymbol n c = n) := by
  have h1 : isInfix cs!"compat" c.name = true := (isInfix_iff _ _).2 hc
  have h2 : isInfix cs!"compat" n.name = false := by
    cases h : isInfix cs!"compat" n.name with
    | false => rfl
    | true => exact absurd ((isInfix_iff _ _).1 h) hn
  unfold Arch.preferredSymbol
  cases hkk : ar.kind <;> simp [hkk, usesCompatWord] at hk ⊢ <;>
    constructor <;> intro hcc <;> simp [preferCompat, h1, h2, hcc]

/-- C28: on x86 a symbol with the prefix of the ABI analysed wins over one without, in both argument orders. -/
theorem C28_x86_abi_prefix (ar : Arch) (p n : Symbol) (hk : ar.kind = .x86)
    (habi : ar.abi ∈ [cs!"x64", cs!"x32", cs!"ia32"])
    (hp : cs!"__" ++ ar.abi ++ cs!"_" <+: p.name) (hn : ¬ cs!"__" ++ ar.abi ++ cs!"_" <+: n.name) :
    ar.preferredSymbol p n = p ∧ ar.preferredSymbol n p = p := by
  have h1 := (startsWith_iff _ _).2 hp
  have h2 := startsWith_false hn
  simp only [List.mem_cons, List.not_mem_nil, or_false] at habi
  unfold Arch.preferredSymbol
  rcases habi with h | h | h <;> simp [h] at h1 h2 <;> simp [hk, x86Preferred, h, h1, h2]

/-- C28: on 64-bit PowerPC a function's code symbol (leading dot) wins over its descriptor. -/
theorem C28_ppc64_dot (ar : Arch) (d n : Symbol) (hk : ar.kind = .powerpc) (hb : ar.bits32 = false)
    (hd : cs!"." <+: d.name) (hn : ¬ cs!"." <+: n.name) :
    ar.preferredSymbol d n = d ∧ ar.preferredSymbol n d = d := by
  have h1 := (startsWith_iff _ _).2 hd
  have h2 := startsWith_false hn
  unfold Arch.preferredSymbol
  simp only [hk, ppcPreferred, hb, h1, h2]
  simp

example : usesCompatWord sampleOabi.kind = true ∧ cs!"compat" <:+: cs!"compat_sys_read" ∧
    ¬ cs!"compat" <:+: cs!"sys_read" := by decide
example : cs!"__" ++ sampleX64.abi ++ cs!"_" <+: cs!"__x64_sys_read" ∧
    ¬ cs!"__" ++ sampleX64.abi ++ cs!"_" <+: cs!"__ia32_sys_read" := by decide

/-! ## C38 -/

/-- C38: the numbers reported for x64, ia32 on 64-bit kernels and ia32 on 32-bit kernels. -/
theorem C38_x86_slots (v : Ver) (a : Arch) (i : Nat) :
    (newArch .x86 v cs!"x64" false = .ok a → a.slot i = if 512 ≤ i ∧ i ≤ 547 then none else some i) ∧
    (newArch .x86 v cs!"ia32" false = .ok a → a.slot i = if i = 113 ∨ i = 166 then none else some i) ∧
    (newArch .x86 v cs!"ia32" true = .ok a → a.slot i = if 380 ≤ i ∧ i ≤ 382 then none else some i) := by
  refine ⟨fun h => ?_, fun h => ?_, fun h => ?_⟩ <;>
    simp [newArch, newX86, pyAssert, bind, Except.bind] at h <;> split at h <;> simp at h <;> subst h <;>
    simp [Arch.slot, Arch.adjustNumber, Arch.skipSyscall]
  congr 1
  simp only [eq_iff_iff]
  omega

/-- C38: x32 numbers are the index with bit 30 set; the entries that are for 64-bit programs only are skipped
before v5.4 and nothing is skipped later. -/
theorem C38_x32_slots (v : Ver) (a : Arch) (i : Nat) (h : newArch .x86 v cs!"x32" false = .ok a) (hi : i < 2 ^ 30) :
    (v < [5, 4] → a.slot i = if i ∈ only64.map Prod.fst then none else some (0x40000000 + i)) ∧
    (¬ v < [5, 4] → a.slot i = some (0x40000000 + i)) ∧
    (∀ n, a.slot i = some n → n.testBit 30 = true ∧ n % 2 ^ 30 = i) := by
  have hbit : (0x40000000 + i).testBit 30 = true := by
    rw [Nat.testBit_eq_decide_div_mod_eq, decide_eq_true_iff]
    omega
  have hver : a.version = v ∧ a.numBase = 0x40000000 ∧ a.kind = .x86 ∧ a.abi = cs!"x32" := by
    simp [newArch, newX86, pyAssert, bind, Except.bind] at h
    split at h
    · simp at h
    · simp at h; subst h; simp
  obtain ⟨hv, hb, hk, habi⟩ := hver
  have hbad : badX32Numbers = only64.map Prod.fst := by decide
  have hx : clearX32Bit (0x40000000 + i) = i := by simp [clearX32Bit, hbit]
  have key : (v < [5, 4] → a.slot i = if i ∈ only64.map Prod.fst then none else some (0x40000000 + i)) ∧
      (¬ v < [5, 4] → a.slot i = some (0x40000000 + i)) := by
    constructor
    · intro hlt
      have hg : verGe v [5, 4] = false := verGe_of_lt hlt
      simp only [Arch.slot, Arch.adjustNumber, Arch.skipSyscall, hk, hb, habi, hv, hg, hx, hbad, List.contains_iff_mem]
      by_cases hm : i ∈ only64.map Prod.fst
      · simp only [hm]; simp
      · simp only [hm]; simp
    · intro hge
      have hg : verGe v [5, 4] = true := verGe_of_not_lt hge
      simp only [Arch.slot, Arch.adjustNumber, Arch.skipSyscall, hk, hb, habi, hv, hg]
      simp
  refine ⟨key.1, key.2, fun n hn => ?_⟩
  have : n = 0x40000000 + i := by
    by_cases hlt : v < [5, 4]
    · have := key.1 hlt; rw [hn] at this; split at this <;> simp at this; exact this
    · have := key.2 hlt; rw [hn] at this; simpa using this
  subst this
  exact ⟨hbit, by omega⟩

/-- C38/C39: numbers for the other architectures are the index plus the base of the ABI, and nothing is skipped. -/
theorem C38_other_slots (row : HelpRow) (h : row ∈ helpTable) (v : Ver) (a : Arch)
    (ha : newArch row.kind v row.abi row.kernel32 = .ok a) (i : Nat)
    (hk : row.kind ≠ .x86) (hp : row.kind = .powerpc → row.kernel32 = true) :
    a.slot i = some (i + if row.abi = cs!"oabi" then 0x900000 else if row.abi = cs!"o32" then 4000
      else if row.abi = cs!"n64" then 5000 else if row.abi = cs!"n32" then 6000 else 0) := by
  simp only [helpTable, List.mem_cons, List.not_mem_nil, or_false] at h
  rcases h with rfl | rfl | rfl | rfl | rfl | rfl | rfl | rfl | rfl | rfl | rfl | rfl | rfl | rfl | rfl | rfl | rfl |
    rfl | rfl
  all_goals
    first
    | (exfalso; simp at hk; done)
    | (exfalso; simp at hp; done)
    | (cases h1 : verGe v [4, 15] <;> cases h2 : verGe v [5, 19] <;>
         simp [newArch, newRiscV, pyAssert, bind, Except.bind, h1, h2] at ha <;> subst ha <;>
         simp [Arch.slot, Arch.adjustNumber, Arch.skipSyscall]; done)
    | (simp [newArch, newArm, newArm64, newMips, newPowerPC, pyAssert, bind, Except.bind] at ha
       (try split at ha) <;> (try split at ha) <;> (try simp at ha) <;> subst ha <;>
       simp [Arch.slot, Arch.adjustNumber, Arch.skipSyscall] <;> (try omega))

example : ∃ a, newArch .x86 [5, 3] cs!"x32" false = .ok a ∧ ([5, 3] : Ver) < [5, 4] ∧ a.slot 13 = none ∧
    a.slot 0 = some 0x40000000 := by
  refine ⟨_, rfl, by decide, by decide, by decide⟩

/-! ## C39 -/

/-- C39: numbers on 64-bit PowerPC. -/
theorem C39_ppc_slots (v : Ver) (a : Arch) (i : Nat) :
    (newArch .powerpc v cs!"ppc64" false = .ok a → v < [5, 0] →
      a.slot i = if i % 2 = 0 then some (i / 2) else none) ∧
    (newArch .powerpc v cs!"ppc32" false = .ok a → v < [5, 0] →
      a.slot i = if i % 2 = 1 then some (i / 2) else none) ∧
    (∀ abi, newArch .powerpc v abi false = .ok a → ¬ v < [5, 0] → a.slot i = some i) ∧
    (newArch .powerpc v cs!"ppc32" true = .ok a → a.slot i = some i) := by
  have attrs : ∀ abi b, newArch .powerpc v abi b = .ok a →
      a.kind = .powerpc ∧ a.version = v ∧ a.abi = abi ∧ a.bits32 = b ∧ a.numBase = 0 := by
    intro abi b h
    simp only [newArch, newPowerPC, pyAssert, bind, Except.bind] at h
    repeat' split at h
    all_goals simp at h
    all_goals subst h; simp_all
  have lt : v < [5, 0] → verGe v [5, 0] = false := verGe_of_lt
  have ge : ¬ v < [5, 0] → verGe v [5, 0] = true := verGe_of_not_lt
  refine ⟨fun h hv => ?_, fun h hv => ?_, fun abi h hv => ?_, fun h => ?_⟩
  · obtain ⟨h1, h2, h3, h4, h5⟩ := attrs _ _ h
    simp only [Arch.slot, Arch.adjustNumber, Arch.skipSyscall, h1, h2, h3, h4, h5, lt hv]
    rcases Nat.mod_two_eq_zero_or_one i with hi | hi <;> simp [hi]
  · obtain ⟨h1, h2, h3, h4, h5⟩ := attrs _ _ h
    simp only [Arch.slot, Arch.adjustNumber, Arch.skipSyscall, h1, h2, h3, h4, h5, lt hv]
    rcases Nat.mod_two_eq_zero_or_one i with hi | hi <;> simp [hi]
  · obtain ⟨h1, h2, h3, h4, h5⟩ := attrs _ _ h
    simp [Arch.slot, Arch.adjustNumber, Arch.skipSyscall, h1, h2, h3, h4, h5, ge hv]
  · obtain ⟨h1, h2, h3, h4, h5⟩ := attrs _ _ h
    simp [Arch.slot, Arch.adjustNumber, Arch.skipSyscall, h1, h2, h3, h4, h5]

/-- C39: on interleaved tables each index is kept by exactly one of the two analyses, and each number of each
analysis comes from exactly one index. -/
theorem C39_no_loss (v : Ver) (a b : Arch) (ha : newArch .powerpc v cs!"ppc64" false = .ok a)
    (hb : newArch .powerpc v cs!"ppc32" false = .ok b) (hv : v < [5, 0]) :
    (∀ i, (a.slot i).isSome = !(b.slot i).isSome) ∧
    (∀ k, ∃ i, a.slot i = some k ∧ ∀ j, a.slot j = some k → j = i) ∧
    (∀ k, ∃ i, b.slot i = some k ∧ ∀ j, b.slot j = some k → j = i) := by
  have h1 := fun i => (C39_ppc_slots v a i).1 ha hv
  have h2 := fun i => (C39_ppc_slots v b i).2.1 hb hv
  refine ⟨fun i => ?_, fun k => ⟨2 * k, ?_, fun j hj => ?_⟩, fun k => ⟨2 * k + 1, ?_, fun j hj => ?_⟩⟩
  · rw [h1, h2]
    rcases Nat.mod_two_eq_zero_or_one i with hi | hi <;> simp [hi]
  · rw [h1]; simp
  · rw [h1] at hj
    split at hj <;> simp at hj
    omega
  · rw [h2]
    have : (2 * k + 1) % 2 = 1 := by omega
    simp only [this, if_true, Option.some.injEq]
    omega
  · rw [h2] at hj
    split at hj <;> simp at hj
    omega

example : ∃ a b, newArch .powerpc [4, 20] cs!"ppc64" false = .ok a ∧ newArch .powerpc [4, 20] cs!"ppc32" false = .ok b ∧
    ([4, 20] : Ver) < [5, 0] := by
  refine ⟨_, _, rfl, rfl, by decide⟩

/-! ## C96 -/

/-- C96 (partial: the property says so for every version, which is false before v5.0, see below). From v5.0 on entry `i` of the SPU
table is number `i`. -/
theorem C96_spu_numbers_partial (v : Ver) (a : Arch) (i : Nat) (h : newArch .powerpc v cs!"spu" false = .ok a) (hv : ¬ v < [5, 0]) :
    a.tableName = some cs!"spu_syscall_table" ∧ a.slot i = some i := by
  refine ⟨?_, (C39_ppc_slots v a i).2.2.1 _ h hv⟩
  simp only [newArch, newPowerPC, pyAssert, bind, Except.bind] at h
  repeat' split at h
  all_goals simp at h
  all_goals subst h; simp_all

example : ∃ a, newArch .powerpc [5, 10] cs!"spu" false = .ok a ∧ ¬ ([5, 10] : Ver) < [5, 0] := ⟨_, rfl, by decide⟩

/-- C96, before v5.0: the table has entries of its own for every number, but is taken for an interleaved one. Odd entries are not
reported, and entry `i` is reported as number `i / 2`. -/
theorem C96_spu_before_5 (v : Ver) (a : Arch) (i : Nat) (h : newArch .powerpc v cs!"spu" false = .ok a) (hv : v < [5, 0]) :
    a.tableName = some cs!"spu_syscall_table" ∧ a.slot i = if i % 2 = 0 then some (i / 2) else none := by
  have attrs : a.kind = .powerpc ∧ a.version = v ∧ a.abi = cs!"spu" ∧ a.bits32 = false ∧ a.numBase = 0 ∧
      a.tableName = some cs!"spu_syscall_table" := by
    simp only [newArch, newPowerPC, pyAssert, bind, Except.bind] at h
    repeat' split at h
    all_goals simp at h
    all_goals subst h; simp_all
  obtain ⟨h1, h2, h3, h4, h5, h6⟩ := attrs
  refine ⟨h6, ?_⟩
  simp only [Arch.slot, Arch.adjustNumber, Arch.skipSyscall, h1, h2, h3, h4, h5, verGe_of_lt hv]
  rcases Nat.mod_two_eq_zero_or_one i with hi | hi <;> simp [hi]

/-- C96 is false before v5.0. -/
theorem C96_spu_numbers_refuted : ¬ ∀ (v : Ver) (a : Arch) (i : Nat), newArch .powerpc v cs!"spu" false = .ok a → a.slot i = some i := by
  intro h
  have h1 : ∃ a, newArch .powerpc [4, 20] cs!"spu" false = .ok a := ⟨_, rfl⟩
  obtain ⟨a, ha⟩ := h1
  have h2 := h _ a 1 ha
  rw [(C96_spu_before_5 _ a 1 ha (by decide)).2] at h2
  simp at h2

/-! ## C40 -/

/-- C40: ARM. -/
theorem C40_arm (a : Arch) (e : Elf) (hk : a.kind = .arm) : ∃ l, a.extractEsoteric e = .ok l ∧
    (l ≠ [] ↔ ∃ s, (cs!"arm_syscall", s) ∈ e.functions) ∧
    (l ≠ [] → l.map (fun x => (x.number, x.name, x.signature)) =
      (armPrivate.take (if [4, 15] ≤ a.version then 6 else 5)).map fun r => (a.numBase + 0xf0000 + r.1, r.2)) ∧
    ∀ x ∈ l, x.symbolName = cs!"arm_syscall" ∧ x.kconfig = none := by
  have hf : dmem cs!"arm_syscall" e.functions = true ↔ ∃ s, (cs!"arm_syscall", s) ∈ e.functions := by
    simp only [dmem, dget_isSome_iff, List.mem_map]
    constructor
    · rintro ⟨⟨n, s⟩, h, rfl⟩; exact ⟨s, h⟩
    · rintro ⟨s, h⟩; exact ⟨_, h, rfl⟩
  refine ⟨armEsoteric a e, by simp [Arch.extractEsoteric, hk], ?_, ?_, ?_⟩
  · rw [← hf]; unfold armEsoteric
    cases dmem cs!"arm_syscall" e.functions <;> simp
  · unfold armEsoteric verGe
    by_cases hv : [4, 15] ≤ a.version
    · have h1 : verLe [4, 15] a.version = true := (verLe_iff _ _).2 hv
      cases dmem cs!"arm_syscall" e.functions <;> simp [hv, h1, armPrivate]
    · have h1 : verLe [4, 15] a.version = false := by rw [← Bool.not_eq_true, verLe_iff]; exact hv
      cases dmem cs!"arm_syscall" e.functions <;> simp [hv, h1, armPrivate]
  · unfold armEsoteric
    cases dmem cs!"arm_syscall" e.functions <;> cases verGe a.version [4, 15] <;> simp

/-- C40: PowerPC. At most `switch_endian` with number 0x1ebe, and it is reported exactly when the ABI is ppc64, the
kernel is older than v6.12, and the instruction sequence occurs from the symbol of the system call vector on. -/
theorem C40_ppc (a : Arch) (e : Elf) (l : List Esoteric) (hk : a.kind = .powerpc)
    (hr : ∀ s ∈ e.syms, s.realVaddr = s.vaddr) (h : a.extractEsoteric e = .ok l) :
    l.length ≤ 1 ∧ (∀ x ∈ l, x.number = 0x1ebe ∧ x.name = cs!"switch_endian" ∧ x.signature = [] ∧
      (∃ exc, dget cs!"exc_real_0xc00_system_call" e.symbols = some exc ∧ x.symbolName = exc.name) ∧
      x.kconfig = if [4, 15] ≤ a.version then some cs!"PPC_FAST_ENDIAN_SWITCH" else none) ∧
    (l ≠ [] ↔ a.abi = cs!"ppc64" ∧ a.version < [6, 12] ∧
      ∃ exc ws, dget cs!"exc_real_0xc00_system_call" e.symbols = some exc ∧ WordsOf e exc ws ∧ SwitchEndianSeq ws) := by
  simp only [Arch.extractEsoteric, hk, ppcEsoteric] at h
  split at h
  · next hc =>
    simp only [Except.ok.injEq] at h
    subst h
    refine ⟨by simp, by simp, by simp, ?_⟩
    rintro ⟨h1, h2, -⟩
    rcases hc with hc | hc
    · exact absurd h1 hc
    · rw [verGe_of_lt h2] at hc; simp at hc
  · next hc =>
    have habi : a.abi = cs!"ppc64" := Classical.byContradiction fun hn => hc (Or.inl hn)
    have hver : a.version < [6, 12] := Classical.byContradiction fun hn => hc (Or.inr (verGe_of_not_lt hn))
    split at h
    · next hn =>
      simp only [Except.ok.injEq] at h
      subst h
      refine ⟨by simp, by simp, by simp, ?_⟩
      rintro ⟨-, -, exc, ws, h3, -⟩
      rw [hn] at h3; simp at h3
    · next exc hs =>
      have hmem : exc ∈ e.syms := List.mem_map.2 ⟨_, dget_mem hs, rfl⟩
      have hnext := nextSymbol_nextAddr e exc hr (hr exc hmem)
      generalize ppcBoundary e exc = stop at *
      have hge : exc.vaddr ≤ stop := by
        rcases hnext with ⟨h, -⟩ | ⟨-, h⟩ <;> omega
      simp only [bind, Except.bind] at h
      split at h
      · simp at h
      · next code hcode =>
        split at h
        · simp at h
        · next ws hws =>
          simp only [Elf.vaddrReadInt, bind, Except.bind] at hcode
          split at hcode
          · simp at hcode
          · next off hoff =>
            have hnn : ¬ ((stop : Int) - exc.vaddr < 0) := by omega
            rw [if_neg hnn] at hcode
            have htn : ((stop : Int) - exc.vaddr).toNat = stop - exc.vaddr := by omega
            rw [htn, Except.ok.injEq] at hcode
            subst hcode
            obtain ⟨hlen, hget⟩ := unpackWords_get _ _ _ hws
            have hsub : ∀ i, 4 * i + 4 ≤ (readAt e.data off (stop - exc.vaddr)).length →
                readAt (readAt e.data off (stop - exc.vaddr)) (4 * i) 4 = readAt e.data (off + 4 * i) 4 := by
              intro i hi
              simp only [readAt, List.length_take, List.length_drop] at hi ⊢
              rw [List.drop_take, List.take_take, List.drop_drop]
              congr 1
              omega
            have hwords : WordsOf e exc ws := by
              refine ⟨off, stop, hoff, hnext, hlen, fun i hi => ?_⟩
              have := hget i ws[i] (List.getElem?_eq_getElem hi)
              rw [List.getElem?_eq_getElem hi, this, hsub i (by omega)]
            have huniq : ∀ ws', WordsOf e exc ws' → ws' = ws := by
              rintro ws' ⟨off', stop', h1, h2, h3, h4⟩
              rw [hoff, Except.ok.injEq] at h1
              subst h1
              have := nextAddr_unique hnext h2
              subst this
              obtain ⟨off2, stop2, k1, k2, k3, k4⟩ := hwords
              rw [hoff, Except.ok.injEq] at k1
              subst k1
              have := nextAddr_unique hnext k2
              subst this
              apply List.ext_getElem?
              intro i
              by_cases hi : i < ws'.length
              · rw [h4 i hi, k4 i (by omega)]
              · rw [List.getElem?_eq_none (by omega), List.getElem?_eq_none (by omega)]
            cases hsw : ppcSwitchEndian ws with
            | true =>
              rw [hsw, if_pos rfl, Except.ok.injEq] at h
              subst h
              have hkc : (if verGe a.version [4, 15] = true then some cs!"PPC_FAST_ENDIAN_SWITCH" else none) =
                  if [4, 15] ≤ a.version then some cs!"PPC_FAST_ENDIAN_SWITCH" else none := by
                simp only [verGe, verLe_iff]
              refine ⟨by simp, (by intro x hx; rw [List.mem_singleton] at hx; subst hx; exact ⟨rfl, rfl, rfl, ⟨exc, hs, rfl⟩, hkc⟩), fun _ => ⟨habi, hver, exc, ws, hs, hwords, (ppcSwitchEndian_iff ws).1 hsw⟩,
                by simp⟩
            | false =>
              rw [hsw] at h
              simp only [Bool.false_eq_true, if_false, Except.ok.injEq] at h
              subst h
              refine ⟨by simp, by simp, by simp, ?_⟩
              rintro ⟨-, -, exc', ws', h1, h2, h3⟩
              rw [hs, Option.some.injEq] at h1
              subst h1
              rw [huniq ws' h2, ← ppcSwitchEndian_iff, hsw] at h3
              simp at h3

/-- C40: no other architecture reports any. -/
theorem C40_others (a : Arch) (e : Elf) (h1 : a.kind ≠ .arm) (h2 : a.kind ≠ .powerpc) :
    a.extractEsoteric e = .ok [] := by
  cases hk : a.kind <;> simp_all [Arch.extractEsoteric]

/-- a PowerPC kernel whose system call vector has the sequence -/
def samplePpcElf : Elf :=
  { data := [0x2c, 0x20, 0x1e, 0xbe, 0x41, 0xc2, 0x00, 0x04, 0x7d, 0x9b, 0x02, 0xa6, 0x69, 0x8c, 0x00, 0x01,
      0x7d, 0x9b, 0x03, 0xa6, 0x4c, 0x00, 0x00, 0x24],
    bits32 := false, bigEndian := true, machine := 21, eflags := 1, sections := [(cs!".text", ⟨cs!".text", 0xc00, 0, 24⟩)],
    symbols := [(cs!"exc_real_0xc00_system_call", ⟨0xc00, 0xc00, 0, cs!"NOTYPE", cs!"exc_real_0xc00_system_call"⟩)],
    functions := [] }

example : (∀ s ∈ samplePpcElf.syms, s.realVaddr = s.vaddr) ∧
    (samplePpc64.extractEsoteric samplePpcElf).map (List.map Esoteric.number) = .ok [0x1ebe] := by decide +kernel

example : sampleOabi.extractEsoteric sampleArmElf = .ok [] ∧
    (sampleOabi.extractEsoteric { sampleArmElf with functions := [(cs!"arm_syscall",
      ⟨0x1000, 0x1000, 64, cs!"FUNC", cs!"arm_syscall"⟩)] }).map List.length = .ok 6 := by decide +kernel

/-! ## C43 -/

/-- C43 (partial: the hypothesis that the reference code is not empty is needed, see below). A syscall is a
dummy because of the reference only if it has the address of the reference function or its first bytes are the reference code; otherwise only the architecture's own check (C41, C42)
can discard it. -/
theorem C43_reference_partial (a : Arch) (e : Elf) (sym ni : Symbol) (code : Bytes) (hne : code ≠ [])
    (h : a.isDummy sym e (some ni) (some code) = .ok true) :
    sym.realVaddr = ni.realVaddr ∨
    (∃ off, e.vaddrToFileOffset sym.realVaddr = .ok off ∧ code <+: e.data.drop off) ∨
    (∃ c, a.dummyCode sym e = .ok (some c)) := by
  simp only [Arch.isDummy, Option.any, bind, Except.bind] at h
  split at h
  · next heq => left; exact eq_of_beq heq
  · right
    split at h
    · simp at h
    · next hit hhit =>
      split at hhit
      · simp at hhit
      · next bs hbs =>
        simp only [Elf.vaddrRead, bind, Except.bind] at hbs
        split at hbs
        · simp at hbs
        · next off hoff =>
          simp only [Except.ok.injEq] at hbs hhit
          split at h
          · next ht =>
            left
            subst hhit
            refine ⟨off, hoff, ?_⟩
            have := of_decide_eq_true ht
            rw [← this, ← hbs]
            exact List.take_prefix _ _
          · right
            split at h
            · simp at h
            · next c hc =>
              simp only [Except.ok.injEq] at h
              obtain ⟨c', rfl⟩ := Option.isSome_iff_exists.1 h
              exact ⟨c', hc⟩

/-- C43 does not extend to empty reference code: if the reference function has size 0, every syscall in the image is
discarded, whatever its code. -/
theorem C43_empty_reference_refuted (a : Arch) (e : Elf) (sym ni : Symbol) (code : Bytes) (off : Nat)
    (hs : ni.size = 0) (hc : e.readSymbol ni = .ok code) (ho : e.vaddrToFileOffset sym.realVaddr = .ok off) :
    a.isDummy sym e (some ni) (some code) = .ok true := by
  have hc' : code = [] := by
    simp only [Elf.readSymbol, Elf.vaddrRead, bind, Except.bind] at hc
    split at hc
    · simp at hc
    · simp only [Except.ok.injEq, hs] at hc
      rw [← hc]; simp [readAt]
  subst hc'
  simp only [Arch.isDummy, Option.any, bind, Except.bind, Elf.vaddrRead, ho, readAt]
  split <;> simp

end Verif
