import Verif.Spec.Output
/-! # Specification: reading the text table back (C131)

What a script does with the text output: the columns begin where their titles do. -/
set_option autoImplicit false

namespace Verif.Spec

/-- the titles of the columns -/
def titles : List Str :=
  [cs!"INDEX", cs!"NUMBER", cs!"NAME", cs!"ORIG NAME", cs!"SYMBOL", cs!"LOCATION", cs!"KCONFIG", cs!"SIGNATURE"]

/-- where the titles begin, the first at `pos` -/
def titleOffsets : List Str → Nat → Str → Option (List Nat)
  | [], _, _ => some []
  | t :: ts, pos, s =>
    if t.isPrefixOf s then
      let rest := s.drop t.length
      let gap := (rest.takeWhile (· == ' ')).length
      (titleOffsets ts (pos + t.length + gap) (rest.drop gap)).map (pos :: ·)
    else none

/-- without the spaces at the end -/
def trimEnd (s : Str) : Str := (s.reverse.dropWhile (· == ' ')).reverse

/-- the texts of a line in the columns -/
def tableColumns : List Nat → Str → List Str
  | [], _ => []
  | [o], s => [trimEnd (s.drop o)]
  | o :: o' :: os, s => trimEnd ((s.take o').drop o) :: tableColumns (o' :: os) s

/-- what can be told about a syscall -/
structure TableRow where
  index : Option Nat
  number : Nat
  name : Str
  origname : Str
  symbol : Str
  location : Str
  kconfig : Str
  signature : Str
  deriving DecidableEq, Repr

/-- a line: a dash for no index, an empty original name if it is the name -/
def readRow : List Str → Option TableRow
  | [i, n, name, orig, sym, loc, kconf, sig] =>
    some ⟨if i = cs!"-" then none else some (natOfDigits (i.dropWhile (· == ' '))), natOfHex (n.drop 2), name,
      if orig = [] then name else orig, sym, loc, kconf, sig⟩
  | _ => none

/-- the syscalls of a table; empty lines only structure it -/
def readTable (text : Str) : Option (List TableRow) :=
  match (splitChar '\n' text).dropLast with
  | [] => none
  | header :: lines =>
    match titleOffsets titles 0 header with
    | none => none
    | some offs => (lines.filter (· ≠ [])).mapM fun l => readRow (tableColumns offs l)

/-- a text that fits into a cell: no end of line in it, no space at its end -/
def Tidy (s : Str) : Prop := '\n' ∉ s ∧ s.getLast? ≠ some ' '

instance (s : Str) : Decidable (Tidy s) := inferInstanceAs (Decidable (_ ∧ _))

/-- the texts of a syscall fit into cells, and it has an original name -/
def TidySyscall (sc : Syscall) : Prop :=
  Tidy sc.name ∧ sc.origname ≠ [] ∧ Tidy sc.origname ∧ Tidy sc.symbol.name ∧ (∀ f, sc.file = some f → f.str ≠ [] ∧ Tidy f.str) ∧
  (∀ k, sc.kconfig = some k → ∃ opt, k = cs!"CONFIG_" ++ opt ∧ ¬ (cs!"CONFIG_" <:+: opt) ∧ Tidy opt) ∧
  ∀ sig, sc.signature = some sig → Tidy (joinWith cs!", " sig)

/-- what the row tells is what the program found out -/
def Tells (sc : Syscall) (r : TableRow) : Prop :=
  r.index = sc.index ∧ r.number = sc.number ∧ r.name = sc.name ∧ r.origname = sc.origname ∧ r.symbol = sc.symbol.name ∧
  LocationCell sc r.location ∧ (∀ k, sc.kconfig = some k → k = cs!"CONFIG_" ++ r.kconfig) ∧ (sc.kconfig = none → r.kconfig = []) ∧
  SignatureCell sc r.signature

end Verif.Spec
