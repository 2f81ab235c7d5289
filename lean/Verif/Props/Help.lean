import Verif.Lemmas.Help
/-! # C86: the build columns of the `--arch` help -/
set_option autoImplicit false

namespace Verif
open Spec

/-- C86 is false of the code: the help says that Linux 3.7 is built from `defconfig` on arm (note [2]), but
`multi_v7_defconfig` is used. -/
theorem C86_build_targets_refuted : ∃ r ∈ buildColumn, ∃ (v : Ver) (a : Arch),
    archFromName r.value v = .ok a ∧ a.configTargets ≠ r.promised v :=
  ⟨⟨cs!"arm", [cs!"multi_v7_defconfig"], [2]⟩, by decide, [3, 7],
   { kind := .arm, version := [3, 7], abi := cs!"eabi", bits32 := true, abiBits32 := true,
     configTargets := [cs!"multi_v7_defconfig"], numReg := some cs!"r7",
     argRegs := some [cs!"r0", cs!"r1", cs!"r2", cs!"r3", cs!"r4", cs!"r5", cs!"r6"] }, by decide +kernel, by decide +kernel⟩

/-- C86, partial: the targets are the promised ones for every row, version and alias, except for v3.7 and its stable
releases in the rows with note [2]; missing for the full property: those versions. -/
theorem C86_build_targets_partial (r : BuildRow) (h : r ∈ buildColumn) (v : Ver) (a : Arch)
    (ha : archFromName r.value v = .ok a) (hv : ¬ (2 ∈ r.notes ∧ v.take 2 = [3, 7])) :
    a.configTargets = r.promised v := by
  rw [row_targets r h v a ha]
  have hd : ∀ r ∈ buildColumn, (2 ∈ r.notes → 3 ∉ r.notes ∧ r.targets = [cs!"multi_v7_defconfig"]) ∧
      (3 ∈ r.notes → r.targets = [cs!"defconfig", cs!"32-bit.config"]) := by decide
  obtain ⟨d2, d3⟩ := hd r h
  unfold BuildRow.promised
  simp only [upTo_iff]
  by_cases n2 : 2 ∈ r.notes
  · have hs := verGe_split v 3 7
    obtain ⟨n3, ht⟩ := d2 n2
    have hne : v.take 2 ≠ [3, 7] := fun e => hv ⟨n2, e⟩
    simp only [hne, false_or] at hs
    cases h8 : verGe v [3, 7 + 1] <;> rw [h8] at hs <;> simp at hs <;> simp [n2, n3, hs, ht]
  · by_cases n3 : 3 ∈ r.notes
    · have ht := d3 n3
      have hm : verGe v [6, 8] = true → verGe v [5, 1] = true := verLe_trans (by decide)
      cases h8 : verGe v [6, 8] <;> cases h5 : verGe v [5, 1] <;> simp [n2, n3, ht]
      rw [hm h8] at h5; cases h5
    · simp [n2, n3]

example : (⟨cs!"riscv", [cs!"defconfig", cs!"32-bit.config"], [3, 6]⟩ : BuildRow) ∈ buildColumn ∧
    (archFromName cs!"riscv" [6, 7, 12]).map Arch.configTargets = .ok [cs!"rv32_defconfig"] ∧
    (archFromName cs!"riscv" [6, 8]).map Arch.configTargets = .ok [cs!"defconfig", cs!"32-bit.config"] ∧
    (archFromName cs!"riscv" [5, 0, 21]).map Arch.configTargets = .ok [cs!"defconfig"] := by decide +kernel

/-- C86: in the excepted versions the code does build from `multi_v7_defconfig`. -/
theorem C86_arm_v3_7 (r : BuildRow) (h : r ∈ buildColumn) (hn : 2 ∈ r.notes) (v : Ver) (a : Arch)
    (ha : archFromName r.value v = .ok a) (hv : v.take 2 = [3, 7]) :
    a.configTargets = [cs!"multi_v7_defconfig"] ∧ r.promised v = [cs!"defconfig"] := by
  rw [row_targets r h v a ha, if_pos hn, if_pos ((verGe_split v 3 7).2 (.inl hv))]
  refine ⟨rfl, ?_⟩
  unfold BuildRow.promised UpTo
  rw [if_pos ⟨hn, le_of_eq hv⟩]

example : (archFromName cs!"arm-oabi" [3, 7, 10]).map Arch.configTargets = .ok [cs!"multi_v7_defconfig"] := by
  decide +kernel

/-- C86: a kernel for one 64-bit row is configured like one for any other 64-bit row of the same architecture (note [1]):
the same targets and, starting from the tables right after import, the same options. -/
theorem C86_same_configuration (r1 r2 : HelpRow) (h1 : r1 ∈ helpTable) (h2 : r2 ∈ helpTable) (hk : r1.kind = r2.kind)
    (k1 : r1.kernel32 = false) (k2 : r2.kernel32 = false) (v : Ver) (a1 a2 : Arch) (s1 s2 : KStore)
    (c1 : archFromNameSt initialStore r1.value v = .ok (a1, s1)) (c2 : archFromNameSt initialStore r2.value v = .ok (a2, s2)) :
    a1.configTargets = a2.configTargets ∧ ∀ w, archKconfig s1 a1 w = archKconfig s2 a2 w := by
  simp only [archFromNameSt, supportedArchs_rows r1 h1 r1.value (by simp),
    supportedArchs_rows r2 h2 r2.value (by simp), createArch] at c1 c2
  have hadds : ctorAdds r1.kind r1.abi r1.kernel32 = ctorAdds r2.kind r2.abi r2.kernel32 := by
    rw [← hk, k1, k2]
    cases hkk : r1.kind with
    | arm =>
      exfalso
      have : ∀ r ∈ helpTable, r.kind = .arm → r.kernel32 = true := by decide
      rw [this r1 h1 hkk] at k1; cases k1
    | _ => rfl
  cases n1 : newArch r1.kind v r1.abi r1.kernel32 with
  | error e => rw [n1] at c1; cases c1
  | ok b1 =>
    cases n2 : newArch r2.kind v r2.abi r2.kernel32 with
    | error e => rw [n2] at c2; cases c2
    | ok b2 =>
      rw [n1] at c1
      rw [n2] at c2
      cases c1
      cases c2
      have hr : ∀ (r : HelpRow) (b : Arch), r ∈ helpTable → newArch r.kind v r.abi r.kernel32 = .ok b → b.kind = r.kind := by
        intro r b hr hb
        obtain ⟨p1, p2⟩ := newArch_row r hr v
        cases hc : verLe (minVersion r.kind r.abi r.kernel32) v with
        | true => obtain ⟨a, ha, hra⟩ := p1 hc; rw [ha] at hb; cases hb; exact hra.1
        | false => rw [p2 hc] at hb; cases hb
      refine ⟨?_, fun w => ?_⟩
      · have t : ∀ (r : HelpRow) (b : Arch), r ∈ helpTable → r.kernel32 = false → newArch r.kind v r.abi r.kernel32 = .ok b →
            b.configTargets = (match r.kind with
              | .arm | .arm64 | .riscv => [cs!"defconfig"]
              | .mips => [cs!"ip27_defconfig"]
              | .powerpc => [cs!"ppc64_defconfig"]
              | .x86 => [cs!"x86_64_defconfig"]) := by
          intro r b hr hk hb
          have hex : ∀ r ∈ helpTable, r.kernel32 = false → ∃ q ∈ buildColumn, q.value = r.value ∧ 2 ∉ q.notes ∧ 3 ∉ q.notes ∧
              q.targets = (match r.kind with
              | .arm | .arm64 | .riscv => [cs!"defconfig"]
              | .mips => [cs!"ip27_defconfig"]
              | .powerpc => [cs!"ppc64_defconfig"]
              | .x86 => [cs!"x86_64_defconfig"]) := by decide +kernel
          obtain ⟨q, hq, hqv, q2, q3, qt⟩ := hex r hr hk
          have := row_targets q hq v b (by
            rw [hqv]; simp only [archFromName, supportedArchs_rows r hr r.value (by simp)]; exact hb)
          rw [this, if_neg q2, if_neg q3, qt]
        rw [t r1 a1 h1 k1 n1, t r2 a2 h2 k2 n2, hk]
      · simp only [archKconfig]
        rw [hr r1 a1 h1 n1, hr r2 a2 h2 n2, if_pos rfl, if_pos rfl, hadds, hk]

example : (archFromNameSt initialStore cs!"mips64" [5, 10]).map (fun _ => ()) = .ok () ∧
    (archFromNameSt initialStore cs!"mips64-o32" [5, 10]).map (fun _ => ()) = .ok () := by decide +kernel

end Verif
