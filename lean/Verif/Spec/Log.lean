import Verif.Model.Log
/-! # Reading standard error -/
set_option autoImplicit false

namespace Verif.Spec

/-- read a line of the log: the level and the message -/
def readLine : Str → Option (LogLevel × Str)
  | '[' :: 'D' :: ']' :: ' ' :: m => some (.debug, m)
  | '[' :: 'I' :: ']' :: ' ' :: m => some (.info, m)
  | '[' :: 'W' :: ']' :: ' ' :: m => some (.warning, m)
  | '[' :: 'E' :: ']' :: ' ' :: m => some (.error, m)
  | '[' :: 'F' :: 'A' :: 'T' :: 'A' :: 'L' :: ']' :: ' ' :: m => some (.critical, m)
  | _ => none

/-- what the options -q and -v ask for: the messages of which levels are shown -/
def Wanted (quiet verbose : Nat) (l : LogLevel) : Prop :=
  match l with
  | .debug => 2 ≤ verbose
  | .info => 1 ≤ verbose
  | .warning => 1 ≤ verbose ∨ quiet ≤ 1
  | .error => 1 ≤ verbose ∨ quiet ≤ 2
  | .critical => 1 ≤ verbose ∨ quiet ≤ 3

instance (quiet verbose : Nat) (l : LogLevel) : Decidable (Wanted quiet verbose l) := by
  unfold Wanted; cases l <;> infer_instance

/-- a terminal that knows the escape sequences for colors: characters with the color they are shown in -/
structure Term where
  /-- parameters of the sequence being read; `none`: just after the escape character -/
  seq : Option (Option Str) := none
  color : Option Str := none
  shown : List (Char × Option Str) := []

/-- one character arrives -/
def Term.step (t : Term) (c : Char) : Term :=
  match t.seq with
  | none => if c = '\x1b' then { t with seq := some none } else { t with shown := t.shown ++ [(c, t.color)] }
  | some none => if c = '[' then { t with seq := some (some []) } else { t with seq := none, shown := t.shown ++ [(c, t.color)] }
  | some (some ps) =>
    if c = 'm' then { t with seq := none, color := if ps = ['0'] then none else some ps } else { t with seq := some (some (ps ++ [c])) }

/-- a text is shown -/
def Term.show (t : Term) (s : Str) : Term := s.foldl Term.step t

/-- the color for a level: red (bold if fatal), yellow, green, blue -/
def colorOf : LogLevel → Str
  | .critical => cs!"1;31"
  | .error => cs!"31"
  | .warning => cs!"33"
  | .info => cs!"32"
  | .debug => cs!"34"

/-- an event as it should look on a terminal: log lines in their color, everything else plain -/
def painted (quiet verbose : Nat) (lost : Str) (ev : ErrEvent) : List (Char × Option Str) :=
  match ev with
  | .log l (some msg) =>
    if Wanted quiet verbose l then (logLine false l msg).map (·, some (colorOf l)) ++ [('\n', none)] else []
  | _ => (stderrText quiet verbose false lost [ev]).map (·, none)

/-- there is no escape character in it -/
def NoEscape : ErrEvent → Prop
  | .say msg => '\x1b' ∉ msg
  | .log _ (some msg) => '\x1b' ∉ msg
  | .log _ none => True
  | .sigint => True
  | .uncaught tb => '\x1b' ∉ tb

end Verif.Spec
