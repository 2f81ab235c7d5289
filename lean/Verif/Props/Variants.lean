import Verif.Spec.Variants
import Verif.Props.Arch
/-! # Which variants there are (C133) -/
set_option autoImplicit false

namespace Verif
open Spec

theorem newArch_abi (k : Kind) (v : Ver) (abi : Str) (b : Bool) (a : Arch) (h : newArch k v abi b = .ok a) :
    abi ∈ [cs!"eabi", cs!"oabi", cs!"aarch64", cs!"aarch32", cs!"o32", cs!"n32", cs!"n64", cs!"ppc32", cs!"ppc64", cs!"spu", cs!"rv32",
      cs!"rv64", cs!"x64", cs!"ia32", cs!"x32"] := by
  by_contra hn
  simp only [List.mem_cons, List.not_mem_nil, or_false, not_or] at hn
  obtain ⟨h1, h2, h3, h4, h5, h6, h7, h8, h9, h10, h11, h12, h13, h14, h15⟩ := hn
  cases k <;> simp only [newArch, newArm, newArm64, newMips, newPowerPC, newRiscV, newX86, pyAssert, bind, Except.bind, h1, h2, h3, h4, h5, h6,
    h7, h8, h9, h10, h11, h12, h13, h14, h15, or_self, decide_false, Bool.false_eq_true, if_false] at h
  all_goals (repeat' split at h) <;> simp_all

/-- **C133**: an object can be made for a class, an ABI and a width of the kernel exactly if the `--arch` help has a row for them, or they
are 64-bit ABIs of 32-bit kernels listed as odd, and the version is one that has the ABI. -/
theorem C133_variants_partial (k : Kind) (v : Ver) (abi : Str) (b : Bool) :
    (∃ a, newArch k v abi b = .ok a) ↔ minVersion k abi b ≤ v ∧ (InHelp k abi b ∨ (k, abi, b) ∈ oddVariants) := by
  rw [← verLe_iff]
  by_cases hh : InHelp k abi b
  · obtain ⟨row, hrow, rfl, rfl, rfl⟩ := hh
    have hh : InHelp row.kind row.abi row.kernel32 := ⟨row, hrow, rfl, rfl, rfl⟩
    obtain ⟨h1, h2⟩ := newArch_row row hrow v
    cases hl : verLe (minVersion row.kind row.abi row.kernel32) v with
    | true => obtain ⟨a, ha, -⟩ := h1 hl; exact ⟨fun _ => ⟨rfl, .inl hh⟩, fun _ => ⟨a, ha⟩⟩
    | false => exact ⟨fun ⟨a, ha⟩ => (by rw [h2 hl] at ha; cases ha), fun h => (by cases h.1)⟩
  · constructor
    · rintro ⟨a, h⟩
      have habi := newArch_abi k v abi b a h
      have key : ∀ abi' ∈ [cs!"eabi", cs!"oabi", cs!"aarch64", cs!"aarch32", cs!"o32", cs!"n32", cs!"n64", cs!"ppc32", cs!"ppc64", cs!"spu",
          cs!"rv32", cs!"rv64", cs!"x64", cs!"ia32", cs!"x32"], abi = abi' → verLe (minVersion k abi b) v = true ∧ (k, abi, b) ∈ oddVariants := by
        intro abi' hm e
        subst e
        simp only [List.mem_cons, List.not_mem_nil, or_false] at hm
        rcases hm with rfl | rfl | rfl | rfl | rfl | rfl | rfl | rfl | rfl | rfl | rfl | rfl | rfl | rfl | rfl
        all_goals cases k <;> cases b
        all_goals first
          | exact absurd (by decide) hh
          | (exfalso; simp [newArch, newArm, newArm64, newMips, newPowerPC, newRiscV, newX86, pyAssert, bind, Except.bind] at h; done)
          | (exfalso; cases h1 : verGe v [2, 6, 24] <;> simp [newArch, newX86, pyAssert, bind, Except.bind, h1] at h; done)
          | (exfalso; cases h1 : verGe v [3, 7] <;> simp [newArch, newArm64, pyAssert, bind, Except.bind, h1] at h; done)
          | (exfalso; cases h1 : verGe v [4, 15] <;> simp [newArch, newRiscV, pyAssert, bind, Except.bind, h1] at h; done)
          | (refine ⟨?_, by decide⟩
             cases h1 : verGe v [2, 6, 15] <;> cases h2 : verGe v [2, 6, 16] <;> cases h3 : verGe v [2, 6, 31] <;>
               simp [newArch, newPowerPC, pyAssert, bind, Except.bind, h1, h2, h3] at h
             all_goals exact h3)
          | (refine ⟨?_, by decide⟩
             cases h1 : verGe v [4, 15] <;> simp [newArch, newRiscV, pyAssert, bind, Except.bind, h1] at h
             exact h1)
      obtain ⟨h1, h2⟩ := key abi habi rfl
      exact ⟨h1, .inr h2⟩
    · rintro ⟨hv, h | h⟩
      · exact absurd h hh
      · simp only [oddVariants, List.mem_cons, List.not_mem_nil, or_false, Prod.mk.injEq] at h
        have l1 : verLe [2, 6, 31] v = true → verLe [2, 6, 15] v = true := verLe_trans (by decide)
        have l2 : verLe [2, 6, 31] v = true → verLe [2, 6, 16] v = true := verLe_trans (by decide)
        rcases h with ⟨rfl, rfl, rfl⟩ | ⟨rfl, rfl, rfl⟩ | ⟨rfl, rfl, rfl⟩
        all_goals
          simp [minVersion] at hv
          simp_all [newArch, newPowerPC, newRiscV, pyAssert, bind, Except.bind, verGe]

/-- **C133**, what is false: a 32-bit kernel with a 64-bit ABI is accepted. -/
theorem C133_refuted : ¬ ∀ (k : Kind) (v : Ver) (abi : Str) (b : Bool) (a : Arch), newArch k v abi b = .ok a → InHelp k abi b := by
  intro h
  obtain ⟨a, ha⟩ := (C133_variants_partial .powerpc [6, 1] cs!"ppc64" true).2 ⟨by decide, .inr (by decide)⟩
  exact absurd (h _ _ _ _ a ha) (by decide)

/-- a variant that exists, one of a kernel too old, and one that does not exist -/
example : (∃ a, newArch .mips [5, 4] cs!"n32" false = .ok a) ∧ (¬ ∃ a, newArch .arm64 [3, 6] cs!"aarch64" false = .ok a) ∧
    ¬ ∃ a, newArch .mips [5, 4] cs!"n32" true = .ok a := by
  simp only [C133_variants_partial]
  exact ⟨⟨by decide, .inl (by decide)⟩, fun h => absurd h.1 (by decide), fun h => absurd h.2 (by decide)⟩

end Verif
