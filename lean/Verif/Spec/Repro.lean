import Verif.Spec.EndToEnd
/-! # Specification of reproducible runs (C121) -/
set_option autoImplicit false

namespace Verif.Spec

/-- The same world with other iteration orders of Python sets: what another run of the same command may see, since the
hash of a string changes from one Python process to the next. -/
def rehash (w : MWorld) (ni : List Symbol → List Symbol) (cands : List Insn → List Insn) (numbers : List Nat → List Nat) :
    MWorld :=
  { w with niOrder := ni, x86 := { w.x86 with candOrder := cands, numOrder := numbers } }

/-- ni_syscall functions at the same address are of the same size -/
def NiAlike (e : Elf) : Prop := ∀ s t, IsNi e s → IsNi e t → s.vaddr = t.vaddr → s.size = t.size

end Verif.Spec
