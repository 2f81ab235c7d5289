import Verif.Props.Arch
import Verif.Spec.Help
/-! Lemmas on the build columns of the `--arch` help. -/
set_option autoImplicit false

namespace Verif
open Spec

theorem upTo_iff (v : Ver) (x y : Nat) : UpTo v x y ↔ verGe v [x, y + 1] = false := by
  have e : UpTo v x y ↔ verLe (v.take 2) [x, y] = true := (verLe_iff _ _).symm
  rw [e, verGe]
  match v with
  | [] => simp [verLe]
  | [a] => by_cases h : a = x <;> simp [verLe, h]; omega
  | a :: b :: t =>
    by_cases h : a = x
    · by_cases h2 : b = y
      · subst h2; simp [verLe, h]
      · by_cases h3 : b = y + 1
        · subst h3; simp [verLe, h]
        · have h3' : ¬ y + 1 = b := fun e => h3 e.symm
          simp [verLe, h, h2, h3']; omega
    · have h' : ¬ x = a := fun e => h e.symm
      simp [verLe, h, h']; omega

theorem verGe_split (v : Ver) (x y : Nat) : verGe v [x, y] = true ↔ v.take 2 = [x, y] ∨ verGe v [x, y + 1] = true := by
  simp only [verGe]
  match v with
  | [] => simp [verLe]
  | [a] => by_cases h : x = a <;> simp [verLe, h]
  | a :: b :: t =>
    by_cases h : x = a
    · subst h
      by_cases h2 : y = b
      · subst h2; simp [verLe]
      · by_cases h3 : y + 1 = b
        · subst h3; simp [verLe]
        · have h2' : ¬ b = y := fun e => h2 e.symm
          simp [verLe, h2, h3, h2']; omega
    · have h' : ¬ a = x := fun e => h e.symm
      simp [verLe, h, h']

/-- targets of each row, as computed -/
theorem row_targets (r : BuildRow) (h : r ∈ buildColumn) (v : Ver) (a : Arch) (ha : archFromName r.value v = .ok a) :
    a.configTargets =
      if 2 ∈ r.notes then (if verGe v [3, 7] then [cs!"multi_v7_defconfig"] else [cs!"defconfig"])
      else if 3 ∈ r.notes then
        (if verGe v [6, 8] then [cs!"defconfig", cs!"32-bit.config"]
         else if verGe v [5, 1] then [cs!"rv32_defconfig"] else [cs!"defconfig"])
      else r.targets := by
  have hs : ∀ r ∈ buildColumn, ∃ row ∈ helpTable, row.value = r.value := by decide +kernel
  obtain ⟨row, hrow, hv⟩ := hs r h
  have e : archFromName r.value v = newArch row.kind v row.abi row.kernel32 := by
    simp only [archFromName, supportedArchs_rows row hrow r.value (by simp [hv])]
  rw [e] at ha
  simp only [buildColumn, List.mem_cons, List.not_mem_nil, or_false] at h
  simp only [helpTable, List.mem_cons, List.not_mem_nil, or_false] at hrow
  rcases h with rfl | rfl | rfl | rfl | rfl | rfl | rfl | rfl | rfl | rfl | rfl | rfl | rfl | rfl | rfl | rfl | rfl |
    rfl | rfl
  all_goals
    rcases hrow with rfl | rfl | rfl | rfl | rfl | rfl | rfl | rfl | rfl | rfl | rfl | rfl | rfl | rfl | rfl | rfl | rfl |
      rfl | rfl
  all_goals
    first
    | (exfalso; simp at hv; done)
    | skip
  all_goals
    simp [newArch, newArm, newArm64, newMips, newPowerPC, newRiscV, newX86, pyAssert, bind, Except.bind] at ha
    (try split at ha) <;> (try split at ha) <;> (try split at ha) <;> (try simp at ha) <;>
      (try subst ha) <;> (try simp_all)

end Verif
