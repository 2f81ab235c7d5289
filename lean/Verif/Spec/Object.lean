import Verif.Model.Object
import Verif.Spec.Main
/-! # Specification: one `Kernel` object, used many times -/
set_option autoImplicit false

namespace Verif.Spec

/-- `o` is an object just made for the image `p`, in the state `st` -/
def MadeOf (w : MWorld) (n : Option Str) (p : Path) (kdir outdir rdir : Option Path) (cross : Str) (hist : List Run)
    (o : KObject) (st : OState) : Prop :=
  ∃ s s', s.b.hist = hist ∧ newObject w n (some p) kdir outdir rdir cross s = (.ok (o, st), s')

/-- `o` is an object just made for the tree `k`, without an image -/
def MadeFor (w : MWorld) (n : Str) (k : Path) (outdir rdir : Option Path) (cross : Str) (o : KObject) (st : OState) : Prop :=
  ∃ s s', newObject w (some n) none (some k) outdir rdir cross s = (.ok (o, st), s')

/-- the first list of syscalls given so far -/
def firstList : List (Op × Res Reply) → Option (List Syscall)
  | [] => none
  | (_, .ok (.syscalls l)) :: _ => some l
  | _ :: us => firstList us

/-- Uses that only read the object. -/
def OnlyReads : Op → Prop
  | .version | .versionStr | .versionTag | .versionSource | .canLocate | .canSign | .syscalls => True
  | _ => False

/-- Uses that make the object forget the version. -/
def Forgets : Op → Prop
  | .clean | .configure | .build _ => True
  | _ => False

/-- What reading an object gives, for the image `e` at `p` of version `v`, with the architecture `a` chosen when the object
was made. `before` are the earlier uses; `extract` is the list the image and the sources give at this moment. -/
def Expected (e : Elf) (v : Ver) (before : List (Op × Res Reply)) (extract : Res (List Syscall)) (r : Res Reply) : Op → Prop
  | .version => r = .ok (.version v)
  | .versionStr => r = .ok (.text (joinWith cs!"." (v.map natRepr) ++ cs!" (from vmlinux)"))
  | .versionTag => r = (versionTag v).map .text
  | .versionSource => r = .ok (.source (some cs!"vmlinux"))
  | .canLocate => r = .ok (.flag (dmem cs!".debug_line" e.sections))
  | .canSign => r = .ok (.flag (e.hasSymbol cs!"__start_syscalls_metadata" || dmem cs!".debug_line" e.sections))
  | .syscalls =>
    match firstList before with
    | some l => r = .ok (.syscalls l)
    | none => r = extract.map .syscalls
  | _ => True

/-- asking the tree for its version -/
def AsksVersion (r : Run) : Prop := r.argv = [cs!"make", cs!"kernelversion"]

/-- `v` is what the tree `k` answered when it was last asked for its version -/
def LastAnswer (w : World) (k : Path) (hist : List Run) (v : Ver) : Prop :=
  ∃ h r h', hist = h ++ r :: h' ∧ AsksVersion r ∧ r.cwd = some k ∧ (∀ x ∈ h', ¬ AsksVersion x) ∧
    w.status h r = some 0 ∧ versionFromStr (w.output h r) = some v

end Verif.Spec
