import Verif.Spec.Utils
/-! # Specifications for the Kconfig properties (C05, C61-C65) -/
set_option autoImplicit false

namespace Verif.Spec

/-- All entries of a versioned table that cover a version agree on the value of a key. -/
def Unambiguous {κ β : Type} (log : List (VEntry κ β)) : Prop :=
  ∀ (v : Ver) (k : κ) (s e s' e' : Ver) (x y : β), (s, e, k, x) ∈ log → (s', e', k, y) ∈ log →
    s ≤ v → v < e → s' ≤ v → v < e' → x = y

/-- some entry of the table gives key `k` the value `x` at version `v` -/
def Covers {κ β : Type} (log : List (VEntry κ β)) (v : Ver) (k : κ) (x : β) : Prop :=
  ∃ s e : Ver, (s, e, k, x) ∈ log ∧ s ≤ v ∧ v < e

/-- an option or an assignment: name and value -/
abbrev Opt := Str × Str

/-- `NAME=VALUE` -/
def Opt.text (o : Opt) : Str := o.1 ++ '=' :: o.2

/-- Read back the arguments of `scripts/config`: `-e NAME`, `-d NAME`, `-m NAME`, `--set-val NAME VALUE`. -/
def decodeArgs : List Str → Option (List Opt)
  | [] => some []
  | [_] => none
  | f :: name :: rest =>
    if f = cs!"-e" then (decodeArgs rest).map ((name, cs!"y") :: ·)
    else if f = cs!"-d" then (decodeArgs rest).map ((name, cs!"n") :: ·)
    else if f = cs!"-m" then (decodeArgs rest).map ((name, cs!"m") :: ·)
    else if f = cs!"--set-val" then
      match rest with
      | val :: rest => (decodeArgs rest).map ((name, val) :: ·)
      | [] => none
    else none

/-- a line of a `.config` file -/
inductive ConfLine where
  /-- only white space -/
  | blank (ws : Str)
  /-- white space, `#`, anything -/
  | comment (ws rest : Str)
  /-- `CONFIG_NAME=VALUE` between white space -/
  | assign (ws : Str) (o : Opt) (ws' : Str)

/-- the characters of the line, terminator included in the trailing white space -/
def ConfLine.text : ConfLine → Str
  | .blank ws => ws
  | .comment ws rest => ws ++ '#' :: rest
  | .assign ws o ws' => ws ++ cs!"CONFIG_" ++ Opt.text o ++ ws'

/-- white space is white space, names contain no `=`, values do not end in white space -/
def ConfLine.WF : ConfLine → Prop
  | .blank ws => ∀ c ∈ ws, isSpace c = true
  | .comment ws _ => ∀ c ∈ ws, isSpace c = true
  | .assign ws o ws' => (∀ c ∈ ws, isSpace c = true) ∧ (∀ c ∈ ws', isSpace c = true) ∧ '=' ∉ o.1 ∧
      ∀ c, o.2.getLast? = some c → isSpace c = false

/-- the assignments of a file, in order -/
def assignments : List ConfLine → List Opt
  | [] => []
  | .assign _ o _ :: ls => o :: assignments ls
  | _ :: ls => assignments ls

/-- the value of the last assignment to a name -/
def lastValue (os : List Opt) (name : Str) : Option Str :=
  (os.reverse.find? fun o => o.1 = name).map Prod.snd

/-- the value a dependency will have: to be set, else set in the file, else the default -/
def effective (options config : List Opt) (dflt : Str → Option Str) (name : Str) : Option Str :=
  match lastValue options name with
  | some v => some v
  | none =>
    match lastValue config name with
    | some v => some v
    | none => dflt name

/-- what the script prints for `-s NAME` -/
def printDefault (dflt : Str → Option Str) (name : Str) : Str :=
  match dflt name with
  | some v => v ++ cs!"\n"
  | none => cs!"undef\n"

/-- `=n` is wanted and the option does not exist -/
def OffAndUnset (dep : Opt) (eff : Option Str) : Prop := dep.2 = cs!"n" ∧ eff = none

/-- `=y` is wanted, the option is off or does not exist, and it is an architecture capability -/
def Unavailable (dep : Opt) (eff : Option Str) : Prop :=
  dep.2 = cs!"y" ∧ (eff = some cs!"n" ∨ eff = none) ∧ (cs!"HAVE_" <+: dep.1 ∨ cs!"ARCH_HAS_" <+: dep.1)

/-- the dependency is violated and neither exception applies -/
def Unmet (dep : Opt) (eff : Option Str) : Prop :=
  eff ≠ some dep.2 ∧ ¬ OffAndUnset dep eff ∧ ¬ Unavailable dep eff

end Verif.Spec
