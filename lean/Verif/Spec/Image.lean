import Verif.Spec.EndToEnd
/-! # Specification: which image is analysed (C88) -/
set_option autoImplicit false

namespace Verif.Spec

/-- `p` is the path written as `text`: absolute if it begins with a slash, its names are those between slashes, without empty ones and
dots -/
def Written (text : Str) (p : Path) : Prop :=
  (p.abs = true ↔ text.head? = some '/') ∧
  ∃ names : List Str, names ≠ [] ∧ (∀ s ∈ names, '/' ∉ s) ∧ joinWith cs!"/" names = text ∧ p.parts = names.filter fun s => decide (s ≠ [] ∧ s ≠ cs!".")

/-- the image to analyse is VMLINUX, or the file `vmlinux` in KDIR if only that is given -/
def IsImage (args : Args) (p : Path) : Prop :=
  (∃ t, t ≠ [] ∧ args.vmlinux = some t ∧ Written t p) ∨
  ((args.vmlinux = none ∨ args.vmlinux = some []) ∧ ∃ t k, t ≠ [] ∧ args.kdir = some t ∧ Written t k ∧
    p.abs = k.abs ∧ p.parts = k.parts ++ [cs!"vmlinux"])

end Verif.Spec
