import Verif.Spec.Digits
import Verif.Lemmas.Cli
/-! # Which characters make a negative number of an argument (C94) -/
set_option autoImplicit false

namespace Verif
open Spec

theorem digitZeros_scripts : digitZeros = digitScripts.map (·.2) := by decide +kernel

theorem decimal_iff (c : Char) : IsDecimal c ↔ ∃ z ∈ digitZeros, z ≤ c.toNat ∧ c.toNat < z + 10 := by
  rw [digitZeros_scripts]
  constructor
  · rintro ⟨s, hs, d, hd, e⟩
    exact ⟨s.2, List.mem_map_of_mem hs, by omega, by omega⟩
  · rintro ⟨z, hz, h1, h2⟩
    obtain ⟨s, hs, rfl⟩ := List.mem_map.1 hz
    exact ⟨s, hs, c.toNat - s.2, by omega, by omega⟩

/-- **C94**: an argument counts as a negative number, and so not as an option, just when it is a minus sign with decimal digits of any
scripts, a point among or before them or none, and possibly an end of line. -/
theorem C94_negative (s : Str) : negativeNumber s = true ↔
    ∃ int frac nl, s = '-' :: (int ++ frac ++ nl) ∧ (∀ c ∈ int, IsDecimal c) ∧ (nl = [] ∨ nl = ['\n']) ∧
      ((frac = [] ∧ int ≠ []) ∨ ∃ d, frac = '.' :: d ∧ (∀ c ∈ d, IsDecimal c) ∧ d ≠ []) := by
  rw [negativeNumber_iff]
  simp only [decimal_iff]
  exact Iff.rfl

/-- digits of other scripts -/
example : negativeNumber ['-', '१', '२'] = true ∧ negativeNumber cs!"-.5" = true ∧ negativeNumber cs!"-1." = false ∧
    negativeNumber ['-', '²'] = false := by decide +kernel

end Verif
