import Verif.Spec.Table
import Verif.Spec.EndToEnd
import Verif.Model.Main
/-! # Specification: the formats tell the same (C132) -/
set_option autoImplicit false

namespace Verif.Spec

/-- the end of a run with the result `k`: all is done but for writing it in the format asked for -/
def printed (w : MWorld) (k : KernelInfo) (f : Format) (s : MState) : Res Nat × MState :=
  match outputSyscalls w.jinja w.css w.js k f with
  | .ok text => (.ok 0, { s with out := some text })
  | .error x => (.error x, s)

/-- the same run, asked for another format -/
def asked (args : Args) (f : Format) : Args := { args with format := f }

/-- the location in the table is made of three members of the object -/
def SameLocationAs (loc : Str) (j : Json) : Prop :=
  (Member j cs!"file" .null ∧ loc = []) ∨
  ∃ f place, Member j cs!"file" (.str f) ∧
    (((Member j cs!"line" .null ∨ Member j cs!"line" (.num 0)) ∧ place = f) ∨
      ∃ l, 0 < l ∧ Member j cs!"line" (.num l) ∧ place = f ++ cs!":" ++ natRepr l) ∧
    ((Member j cs!"good_location" (.bool true) ∧ loc = place) ∨ (Member j cs!"good_location" (.bool false) ∧ loc = cs!"(?) " ++ place))

/-- the signature in the table is made of the list of arguments -/
def SameSignatureAs (sig : Str) (j : Json) : Prop :=
  (Member j cs!"signature" .null ∧ sig = cs!"?") ∨ (Member j cs!"signature" (.arr []) ∧ sig = cs!"void") ∨
  ∃ a as, Member j cs!"signature" (.arr (.str a :: as.map .str)) ∧ sig = joinWith cs!", " (a :: as)

/-- a row of the text table and an object of the JSON document tell the same -/
def Agree (r : TableRow) (j : Json) : Prop :=
  ((r.index = none ∧ Member j cs!"index" .null) ∨ ∃ i, r.index = some i ∧ Member j cs!"index" (.num i)) ∧
  Member j cs!"number" (.num r.number) ∧ Member j cs!"name" (.str r.name) ∧ Member j cs!"origname" (.str r.origname) ∧
  Member j cs!"symbol" (.str r.symbol) ∧ SameLocationAs r.location j ∧
  ((r.kconfig = [] ∧ Member j cs!"kconfig" .null) ∨ Member j cs!"kconfig" (.str r.kconfig)) ∧ SameSignatureAs r.signature j

end Verif.Spec
