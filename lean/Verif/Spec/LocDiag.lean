import Verif.Model.LocDiag
import Verif.Spec.Record
import Verif.Spec.Found
/-! # What is told while locations are searched for -/
set_option autoImplicit false

namespace Verif.Spec

/-- about a syscall found by searching the sources: its original name, and the location it got -/
def saidGrepped (kdir : Path) (sc : Syscall) : Said :=
  (.warning, some (cs!"Location found through grepping: " ++ sc.origname ++ cs!" -> " ++
    (sc.file.map fun f => (shownPath (some kdir) f).str).getD [] ++ cs!":" ++ lineText sc.line))

/-- about sources that cannot be those of the kernel: the debug information names a line beyond the end of the file -/
def saidWrongSource (f : Path) : List Said :=
  [(.critical, some (cs!"File \"" ++ f.str ++ cs!"\" does not have enough lines of code!")),
   (.critical, some cs!"Do you have the correct source code version for this kernel?")]

/-- the debug information about the address names line `l` of the source file `f` -/
def Sources.Names (x : Sources) (addr : Nat) (f : Path) (l : Nat) : Prop :=
  ∃ p, RowSays (x.row addr) (some p) (some l) ∧ SourceOf x.w.elfPath x.kdir x.rdir p f

/-- the debug information about an address of a syscall that is asked about names a line beyond the end of the file -/
def Sources.TooShort (x : Sources) (scs : List Syscall) (f : Path) : Prop :=
  ∃ sc ∈ scs, ∃ addr ∈ askedAddrs sc.symbol, ∃ lines l, x.Names addr f l ∧ x.w.files f = some lines ∧ lines.length < l

/-- the external commands used for locations do not end the program -/
def Succeeds (w : LEnv) : Prop := (∀ addrs, w.addr2line addrs ≠ .error (.exit 1)) ∧ w.grep ≠ .error (.exit 1)

end Verif.Spec
