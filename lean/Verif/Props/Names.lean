import Verif.Spec.Names
import Verif.Props.Arch
/-! # Names known from Linux (C24, C35) -/
set_option autoImplicit false

namespace Verif
open Spec

/-- **C24**: the architecture detected has the name of its directory in the sources of Linux. -/
theorem C24_name (e : Elf) (k : Kind) (b : Bool) (abis : List Str) (h : archFromVmlinux e = .ok (some (k, b, abis))) :
    (e.machine, k.name) ∈ archDirectories := by
  obtain ⟨⟨m, c, hm, he, -⟩, -⟩ := ((C24_detection e).1 k b abis).1 h
  have : ∀ q ∈ machineTable, (q.1, q.2.1.name) ∈ archDirectories := by decide +kernel
  rw [he]
  exact this _ hm

/-- **C35**: the symbols that mean "not implemented" are the functions of that name. -/
theorem C35_ni (e : Elf) (s : Symbol) : IsNi e s ↔ s ∈ e.functions.map Prod.snd ∧ s.type = cs!"FUNC" ∧ NamedNi s.name := by
  unfold IsNi symbolIsNi NamedNi
  simp only [anysuffix, Bool.and_eq_true, decide_eq_true_eq, List.any_cons, List.any_nil, Bool.or_false, Bool.or_eq_true, endsWith_iff,
    Bool.not_eq_true', ← Bool.not_eq_true, startsWith_iff, List.mem_cons, List.not_mem_nil, or_false, forall_eq_or_imp, forall_eq]
  constructor
  · rintro ⟨h1, ⟨⟨⟨h2, h3⟩, h4⟩, h5⟩, h6⟩
    exact ⟨h1, h2, h3, h4, h5, h6⟩
  · rintro ⟨h1, h2, h3, h4, h5, h6⟩
    exact ⟨h1, ⟨⟨⟨h2, h3⟩, h4⟩, h5⟩, h6⟩

/-! ## Cases that meet the hypotheses -/

/-- functions of that name, and others -/
example : NamedNi cs!"__x64_sys_ni_syscall" ∧ ¬ NamedNi cs!"__cfi_sys_ni_syscall" ∧ ¬ NamedNi cs!"sys_read" := by
  refine ⟨⟨.inl (by decide), by decide⟩, fun h => h.2 cs!"__cfi_" (by decide) (by decide), fun h => ?_⟩
  rcases h.1 with h | h
  · exact absurd h (by decide)
  · exact absurd h (by decide)

end Verif
