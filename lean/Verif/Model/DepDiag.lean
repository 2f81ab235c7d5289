import Verif.Model.Kconfig
import Verif.Model.Diag
/-! # Messages of the dependency check

`edit_config_check_deps` (kconfig.py:73-113) once more, with the messages it logs kept as calls of the `logging` module.
`Model/Kconfig` keeps only what a message is about. -/
set_option autoImplicit false

namespace Verif

/-- What kconfig.py does to the outside: run `./scripts/config --file CONFIG args`, or log a message. -/
inductive KRec where
  /-- kconfig.py:33-34 `run_config_script` with these `args` -/
  | script (args : List Str)
  /-- kconfig.py:107, 111 a call of `logging` -/
  | log (c : LogCall)
  deriving DecidableEq

/-- kconfig.py:98-101 -/
def depNameAndVal (name : Str) : Option Str → Str
  | none => cs!"CONFIG_" ++ name ++ cs!" is not set"
  | some v => cs!"CONFIG_" ++ name ++ cs!"=" ++ v

/-- kconfig.py:107-108; an f-string without arguments -/
def wontBeSet (opt nameAndVal : Str) : LogCall := ⟨.warning, cs!"CONFIG_" ++ opt ++ cs!" won't be set because " ++ nameAndVal, []⟩

/-- kconfig.py:111-112; an f-string without arguments -/
def wantsBut (opt name wanted nameAndVal : Str) : LogCall :=
  ⟨.error, cs!"CONFIG_" ++ opt ++ cs!" wants CONFIG_" ++ name ++ cs!"=" ++ wanted ++ cs!", but " ++ nameAndVal ++ cs!"!", []⟩

/-- kconfig.py:82-91 the value of a dependency -/
def depActualL (toset config : Dict Str Str) (defaults : List (List Str) → Str → Str) (before : List (List Str)) (name : Str) :
    List KRec × Option Str :=
  let a := match dget name toset with
    | some (c :: cs) => some (c :: cs)
    | _ => dget name config
  match a with
  | some x => ([], some x)
  | none =>
    let d := strip (defaults before name)
    ([.script [cs!"-s", name]], if d = cs!"undef" then none else some d)

/-- kconfig.py:80-112 body of the inner loop -/
def checkDepL (toset config : Dict Str Str) (defaults : List (List Str) → Str → Str) (before : List (List Str)) (opt dep : Str) :
    List KRec × Res Unit :=
  match splitEq dep with
  | .error x => ([], .error x)
  | .ok (name, wanted) =>
    let (evs, actual) := depActualL toset config defaults before name
    if actual ≠ some wanted then
      if wanted = cs!"n" ∧ actual = none then (evs, .ok ())
      else
        let nameAndVal := depNameAndVal name actual
        if wanted = cs!"y" ∧ (actual = some cs!"n" ∨ actual = none) ∧ anyprefix name [cs!"HAVE_", cs!"ARCH_HAS_"] = true then
          (evs ++ [.log (wontBeSet opt nameAndVal)], .ok ())
        else (evs ++ [.log (wantsBut opt name wanted nameAndVal)], .ok ())
    else (evs, .ok ())

/-- the arguments of the script invocations in a trace -/
def KRec.scripts : List KRec → List (List Str)
  | [] => []
  | .script as :: es => as :: KRec.scripts es
  | _ :: es => KRec.scripts es

/-- kconfig.py:79-112 the two nested loops, flattened in iteration order -/
def checkDepsL (toset config : Dict Str Str) (defaults : List (List Str) → Str → Str) :
    List (List Str) → List (Str × Str) → List KRec × Res Unit
  | _, [] => ([], .ok ())
  | before, (opt, dep) :: rest =>
    match checkDepL toset config defaults before opt dep with
    | (evs, .error x) => (evs, .error x)
    | (evs, .ok ()) =>
      let (evs', r) := checkDepsL toset config defaults (before ++ KRec.scripts evs) rest
      (evs ++ evs', r)

/-- kconfig.py:52-69 `edit_config`, which logs nothing of these levels -/
def editConfigL (options : List Str) : List KRec × Res Unit :=
  if options.isEmpty then ([], .ok ())
  else match editArgs options with
    | .error x => ([], .error x)
    | .ok args => ([.script args], .ok ())

/-- kconfig.py:73-113 `edit_config_check_deps` -/
def editConfigCheckDepsL (configLines : List Str) (defaults : List (List Str) → Str → Str) (options : Dict Str (List Str)) :
    List KRec × Res Unit :=
  if options.isEmpty then ([], .ok ())
  else match tosetOf (options.map Prod.fst) with
    | .error x => ([], .error x)
    | .ok toset =>
      match parseConfig configLines with
      | .error x => ([], .error x)
      | .ok config =>
        match checkDepsL toset config defaults [] (options.flatMap fun od => od.2.map fun d => (od.1, d)) with
        | (evs, .error x) => (evs, .error x)
        | (evs, .ok ()) =>
          let (evs', r) := editConfigL (options.map Prod.fst)
          (evs ++ evs', r)

end Verif
