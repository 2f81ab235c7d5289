import Verif.Model.DepDiag
import Verif.Spec.Kconfig
import Verif.Spec.Record
/-! # The complete record of the dependency check -/
set_option autoImplicit false

namespace Verif.Spec

/-- the state of an option, in words -/
def stateWords (name : Str) : Option Str → Str
  | none => cs!"CONFIG_" ++ name ++ cs!" is not set"
  | some v => cs!"CONFIG_" ++ name ++ cs!"=" ++ v

/-- what is shown about the dependency `dep` of the option `opt`, when `dep` will have the given value -/
def warnText (opt dep : Opt) (eff : Option Str) : Str :=
  cs!"CONFIG_" ++ Opt.text opt ++ cs!" won't be set because " ++ stateWords dep.1 eff

def errorText (opt dep : Opt) (eff : Option Str) : Str :=
  cs!"CONFIG_" ++ Opt.text opt ++ cs!" wants CONFIG_" ++ Opt.text dep ++ cs!", but " ++ stateWords dep.1 eff ++ cs!"!"

instance (dep : Opt) (eff : Option Str) : Decidable (Unavailable dep eff) := by unfold Unavailable; infer_instance
instance (dep : Opt) (eff : Option Str) : Decidable (OffAndUnset dep eff) := by unfold OffAndUnset; infer_instance
instance (dep : Opt) (eff : Option Str) : Decidable (Unmet dep eff) := by unfold Unmet; infer_instance

def saidDep (opt dep : Opt) (eff : Option Str) : List Said :=
  if Unmet dep eff then [(.error, some (errorText opt dep eff))]
  else if Unavailable dep eff then [(.warning, some (warnText opt dep eff))]
  else []

/-- a step seen from outside: an invocation of the script, or a message shown -/
inductive KSeen
  | run (args : List Str)
  | shown (s : Said)
  deriving DecidableEq

def seenOf : KRec → KSeen
  | .script as => .run as
  | .log c => .shown (c.level, c.text)

/-- the default of an option is asked for if the option is neither to be set nor set in the file -/
def askedDep (options config : List Opt) (name : Str) : List KSeen :=
  if lastValue options name = none ∧ lastValue config name = none then [.run [cs!"-s", name]] else []

/-- the kinds of the steps: invocations of the script, and levels of messages -/
def KEvent.kind : KEvent → List Str ⊕ Level
  | .script as => .inl as
  | .warn _ _ => .inr .warning
  | .error _ _ => .inr .error

def KRec.kind : KRec → List Str ⊕ Level
  | .script as => .inl as
  | .log c => .inr c.level

end Verif.Spec
