import Verif.Spec.Location
import Verif.Model.Rg
/-! # Specifications for C100, C101 -/
set_option autoImplicit false

namespace Verif.Spec

/-- the last component of a path is a name that ends with `.c` -/
def NamedC (path : List Str) : Prop := ∃ last, path.getLast? = some last ∧ cs!".c" <:+ last

/-- the last component of a path starts with a dot -/
def NamedHidden (path : List Str) : Prop := ∃ last, path.getLast? = some last ∧ cs!"." <+: last

/-- an entry of one of the directories that are not to be searched, or of arch/ -/
def InTop (path : List Str) : Prop := ∃ top x, (top ∈ excludedTops ∨ top = cs!"arch") ∧ path = [top, x]

/-- the directories that ripgrep enters -/
def RgEnters (a : Arch) (ignored : List Str → Bool) (dir : List Str) : Prop :=
  NamedC dir ∨ dir = [cs!"arch", a.kind.name] ∨ (¬ InTop dir ∧ ¬ NamedHidden dir ∧ ignored dir = false)

/-- a source tree where it makes no difference how it is searched -/
structure PlainTree (a : Arch) (ignored : List Str → Bool) (tree : List (Str × Node)) : Prop where
  /-- there are no two entries with one name -/
  nodup : (tree.map Prod.fst).Nodup
  /-- nothing hidden is named like a C file -/
  hidden : ∀ path node, At tree path node → NamedHidden path → ¬ NamedC path
  /-- no directory is named like a C file, or ignored by an ignore file -/
  dirs : ∀ path sub, At tree path (.dir sub) → ¬ NamedC path ∧ ignored path = false
  /-- the directories that are not to be searched have no C files directly in them -/
  tops : ∀ top x lines, top ∈ excludedTops → At tree [top, x] (.file lines) → ¬ NamedC [top, x]
  /-- the directory of the architecture is not a file -/
  archDir : ∀ lines, ¬ At tree [cs!"arch", a.kind.name] (.file lines)

/-- two rows between which grepping does not prefer one -/
def SameRank (a : Arch) (x y : Str) : Prop := (InArch x ↔ InArch y) ∧ marks a x = marks a y

/-- of two rows for one of the syscalls, one is preferred -/
def ClearRows (a : Arch) (rows : List Str) (todo : List Ref) : Prop :=
  ∀ x ∈ rows, ∀ y ∈ rows, x ≠ y → SameRank a x y → ∀ r ∈ todo, ¬ (RowOf a x r.2.origname ∧ RowOf a y r.2.origname)

end Verif.Spec
