import Verif.Model.Main
/-! # What a command line of systrack says

A vocabulary for command lines that does not mention the parser: the switches and the options with a value (the table of
`systrack --help`), the ways to write each of them, and what each of them asks for. -/
set_option autoImplicit false

namespace Verif.Spec
open Verif

/-- the options without a value, `-h` and `-V` aside -/
inductive Switch where
  | build | config | clean | absolutePaths | disableOpt | quiet | verbose
  deriving DecidableEq, Repr

/-- the options with a value -/
inductive Setting where
  | kdir | arch | cross | out | format | remap | checkout
  deriving DecidableEq, Repr

def Switch.all : List Switch := [.build, .config, .clean, .absolutePaths, .disableOpt, .quiet, .verbose]
def Setting.all : List Setting := [.kdir, .arch, .cross, .out, .format, .remap, .checkout]

def Switch.long : Switch → Str
  | .build => cs!"--build"
  | .config => cs!"--config"
  | .clean => cs!"--clean"
  | .absolutePaths => cs!"--absolute-paths"
  | .disableOpt => cs!"--disable-opt"
  | .quiet => cs!"--quiet"
  | .verbose => cs!"--verbose"

def Switch.short : Switch → Option Char
  | .build => some 'b'
  | .config => some 'c'
  | .clean => some 'C'
  | .quiet => some 'q'
  | .verbose => some 'v'
  | _ => none

def Setting.long : Setting → Str
  | .kdir => cs!"--kdir"
  | .arch => cs!"--arch"
  | .cross => cs!"--cross"
  | .out => cs!"--out"
  | .format => cs!"--format"
  | .remap => cs!"--remap"
  | .checkout => cs!"--checkout"

def Setting.short : Setting → Option Char
  | .kdir => some 'k'
  | .arch => some 'a'
  | .cross => some 'x'
  | .out => some 'o'
  | .format => some 'f'
  | _ => none

/-- all the long names -/
def longNames : List Str := cs!"--help" :: cs!"--version" :: Switch.all.map Switch.long ++ Setting.all.map Setting.long

/-- all the letters -/
def letters : List Char := 'h' :: 'V' :: Switch.all.filterMap Switch.short ++ Setting.all.filterMap Setting.short

/-- `name` is `full` or an abbreviation of it and of no other option -/
def Abbreviates (name full : Str) : Prop := name <+: full ∧ ∀ l ∈ longNames, name <+: l → l = full

/-- how the value of a single-letter option is given: `-kX`, `-k=X`, `-k X` -/
inductive Join where
  | attached | equals | detached
  deriving DecidableEq, Repr

/-- one thing said on the command line -/
inductive CliItem where
  /-- `--build`, or an abbreviation -/
  | switch (f : Switch) (name : Str)
  /-- `--kdir=X` or `--kdir X`, or with an abbreviation -/
  | setting (v : Setting) (name x : Str) (eq : Bool)
  /-- `-bq`: switches by letter, the last letter may be an option with a value -/
  | group (fs : List Switch) (last : Option (Setting × Str × Join))
  /-- VMLINUX -/
  | vmlinux (x : Str)
  deriving DecidableEq, Repr

/-- the arguments that say it -/
def CliItem.args : CliItem → List Str
  | .switch _ name => [name]
  | .setting _ name x true => [name ++ '=' :: x]
  | .setting _ name x false => [name, x]
  | .group fs none => ['-' :: fs.filterMap Switch.short]
  | .group fs (some (v, x, .attached)) => ['-' :: (fs.filterMap Switch.short ++ v.short.toList ++ x)]
  | .group fs (some (v, x, .equals)) => ['-' :: (fs.filterMap Switch.short ++ v.short.toList ++ '=' :: x)]
  | .group fs (some (v, x, .detached)) => ['-' :: (fs.filterMap Switch.short ++ v.short.toList), x]
  | .vmlinux x => [x]

/-- decimal digits, of any script (the blocks of ten listed in `digitZeros`) -/
def DecimalDigits (zeros : List Nat) (s : Str) : Prop := ∀ c ∈ s, ∃ z ∈ zeros, z ≤ c.toNat ∧ c.toNat < z + 10

/-- `-12`, `-.5` or `-1.5`, possibly with a newline at the end -/
def NegativeNumber (zeros : List Nat) (s : Str) : Prop :=
  ∃ int frac nl, s = '-' :: (int ++ frac ++ nl) ∧ DecimalDigits zeros int ∧ (nl = [] ∨ nl = ['\n']) ∧
    ((frac = [] ∧ int ≠ []) ∨ ∃ d, frac = '.' :: d ∧ DecimalDigits zeros d ∧ d ≠ [])

/-- what precedes the first `=` -/
def beforeEq (s : Str) : Str := s.takeWhile (· ≠ '=')

/-- an argument beginning with `-` that cannot be read as an option, even an ambiguous one -/
def NoReading : Str → Prop
  | '-' :: '-' :: s => ∀ l ∈ longNames, ¬ beforeEq ('-' :: '-' :: s) <+: l
  | '-' :: c :: _ => c ∉ letters
  | _ => True

/-- an argument that stands for itself: one not beginning with `-`, `-` alone, a negative number, or a text with a space that
begins like no option -/
def Plain (zeros : List Nat) (x : Str) : Prop :=
  x.head? ≠ some '-' ∨ x = ['-'] ∨ NegativeNumber zeros x ∨ (' ' ∈ x ∧ NoReading x)

/-- the formats -/
def formatNamed (x : Str) : Option Format :=
  if x = cs!"text" then some .text else if x = cs!"json" then some .json else if x = cs!"html" then some .html else none

/-- the value is acceptable for the option -/
def Acceptable (v : Setting) (x : Str) : Prop := v = .format → (formatNamed x).isSome

/-- the thing is said properly -/
def CliItem.Ok (zeros : List Nat) : CliItem → Prop
  | .switch f name => Abbreviates name f.long
  | .setting v name x eq => Abbreviates name v.long ∧ Acceptable v x ∧ (eq = false → Plain zeros x)
  | .group fs last =>
    (∀ f ∈ fs, f.short.isSome) ∧
    match last with
    | none => fs ≠ []
    | some (v, x, j) => v.short.isSome ∧ Acceptable v x ∧
      match j with
      | .attached => x ≠ [] ∧ x.head? ≠ some '='
      | .equals => True
      | .detached => Plain zeros x
  | .vmlinux x => Plain zeros x

/-- what a switch asks for -/
def Switch.apply (a : Args) : Switch → Args
  | .build => { a with build := true }
  | .config => { a with config := true }
  | .clean => { a with clean := true }
  | .absolutePaths => { a with absolutePaths := true }
  | .disableOpt => { a with disableOpt := true }
  | .quiet => { a with quiet := a.quiet + 1 }
  | .verbose => { a with verbose := a.verbose + 1 }

/-- what an option with a value asks for -/
def Setting.apply (a : Args) (x : Str) : Setting → Args
  | .kdir => { a with kdir := some x }
  | .arch => { a with arch := some x }
  | .cross => { a with cross := some x }
  | .out => { a with out := some x }
  | .format => { a with format := (formatNamed x).getD a.format }
  | .remap => { a with remap := some x }
  | .checkout => { a with checkout := some x }

/-- what an item asks for -/
def CliItem.apply (a : Args) : CliItem → Args
  | .switch f _ => f.apply a
  | .setting v _ x _ => v.apply a x
  | .group fs none => fs.foldl Switch.apply a
  | .group fs (some (v, x, _)) => v.apply (fs.foldl Switch.apply a) x
  | .vmlinux x => { a with vmlinux := some x }

def CliItem.isVmlinux : CliItem → Bool
  | .vmlinux _ => true
  | _ => false

/-- the end of a command line: nothing, `--`, or `-- VMLINUX` -/
inductive Ending where
  | nothing
  | dashes
  | dashesThen (x : Str)
  deriving DecidableEq, Repr

def Ending.args : Ending → List Str
  | .nothing => []
  | .dashes => [cs!"--"]
  | .dashesThen x => [cs!"--", x]

/-- a whole command line -/
structure Line where
  items : List CliItem
  ending : Ending := .nothing
  deriving DecidableEq, Repr

def Line.args (l : Line) : List Str := l.items.flatMap CliItem.args ++ l.ending.args

/-- said properly: each item is, VMLINUX is named at most once, and a final `--` comes right after it or before it -/
def Line.Ok (zeros : List Nat) (l : Line) : Prop :=
  (∀ i ∈ l.items, i.Ok zeros) ∧
  match l.ending with
  | .nothing => l.items.countP CliItem.isVmlinux ≤ 1
  | .dashes => l.items.countP CliItem.isVmlinux = 0 ∨
      ∃ init x, l.items = init ++ [.vmlinux x] ∧ init.countP CliItem.isVmlinux = 0
  | .dashesThen _ => l.items.countP CliItem.isVmlinux = 0

/-- what the line asks for: the items in order, so that the last of several values counts -/
def Line.meaning (l : Line) : Args :=
  match l.ending with
  | .dashesThen x => { l.items.foldl CliItem.apply {} with vmlinux := some x }
  | _ => l.items.foldl CliItem.apply {}

/-- an argument that begins like several long options -/
def Ambiguous (s : Str) : Prop :=
  s.take 2 = cs!"--" ∧ ∃ l ∈ longNames, ∃ l' ∈ longNames, l ≠ l' ∧ beforeEq s <+: l ∧ beforeEq s <+: l'

/-- the arguments before the first `--` -/
def beforeDashes (argv : List Str) : List Str := argv.takeWhile (· ≠ cs!"--")

/-- the letters of the options without a value, `-h` and `-V` included -/
def plainLetters : List Char := 'h' :: 'V' :: Switch.all.filterMap Switch.short

/-- the argument names the option `full` or, among letters of options without a value, its letter -/
def Names (full : Str) (letter : Char) (s : Str) : Prop :=
  Abbreviates s full ∨ ∃ u v, s = '-' :: (u ++ letter :: v) ∧ ∀ c ∈ u, c ∈ plainLetters

end Verif.Spec
