import Verif.Spec.Build
/-! # Specification of the kernel's `scripts/config` on a `.config` file (C93)

Written after the script shipped with Linux: names lose a leading `CONFIG_` and are upper-cased (`MUNGE_CASE`), lines about a
name are replaced, a line is appended if there is none; `-s` prints the state. Names are not taken as regular expressions. -/
set_option autoImplicit false

namespace Verif.Spec

/-- a line of a `.config` file as Kconfig writes it -/
inductive CLine where
  /-- `CONFIG_NAME=VALUE` -/
  | assign (name value : Str)
  /-- `# CONFIG_NAME is not set` -/
  | notSet (name : Str)
  /-- another comment: `#` and the rest -/
  | comment (rest : Str)
  /-- an empty line -/
  | empty
  deriving DecidableEq

/-- the line with its newline -/
def CLine.text : CLine → Str
  | .assign n v => cs!"CONFIG_" ++ Opt.text (n, v) ++ cs!"\n"
  | .notSet n => cs!"# CONFIG_" ++ n ++ cs!" is not set\n"
  | .comment rest => cs!"#" ++ rest ++ cs!"\n"
  | .empty => cs!"\n"

/-- the line is about this option -/
def CLine.about (n : Str) : CLine → Bool
  | .assign m _ => m = n
  | .notSet m => m = n
  | _ => false

/-- names without `=`, values that do not end in white space -/
def CLine.WF : CLine → Prop
  | .assign n v => '=' ∉ n ∧ ∀ c, v.getLast? = some c → isSpace c = false
  | _ => True

/-- a file as Kconfig writes it: at most one line per option -/
def ConfigFile (f : List CLine) : Prop := (∀ l ∈ f, l.WF) ∧ ∀ n, (f.filter (CLine.about n)).length ≤ 1

/-- what a line says about an option: `n` when it is not set -/
def CLine.says : CLine → Option Str
  | .assign _ v => some v
  | .notSet _ => some cs!"n"
  | _ => none

/-- the value of an option in a file (the last one), none if it is not mentioned -/
def valueOf (f : List CLine) (n : Str) : Option Str := ((f.filter (CLine.about n)).getLast?).bind CLine.says

/-- `checkarg` of the script -/
def toolName (arg : Str) : Str := ((if cs!"CONFIG_" <+: arg then arg.drop 7 else arg)).map Char.toUpper

/-- the line for an option: `-d` comments it out -/
def optLine (o : Opt) : CLine := if o.2 = cs!"n" then .notSet (toolName o.1) else .assign (toolName o.1) o.2

/-- `set_var` of the script -/
def setOpt (f : List CLine) (o : Opt) : List CLine :=
  if f.any (CLine.about (toolName o.1)) then f.map fun l => if l.about (toolName o.1) then optLine o else l
  else f ++ [optLine o]

/-- the file after the script has set options, in order -/
def setOpts (f : List CLine) (os : List Opt) : List CLine := os.foldl setOpt f

/-- what `-s NAME` prints for an option without assignment -/
def stateText (f : List CLine) (n : Str) : Str :=
  if CLine.notSet (toolName n) ∈ f then cs!"n\n" else cs!"undef\n"

/-- an option name that the script leaves alone -/
def OptionName (n : Str) : Prop := toolName n = n ∧ '=' ∉ n

instance (n : Str) : Decidable (OptionName n) := by unfold OptionName; infer_instance

/-- The content of the `.config` file after a history of commands is `file`: `scripts/config` sets options when it succeeds and
changes nothing when asked; other commands do anything. -/
structure ConfigWorld (w : World) (kdir cfg : Path) (file : List Run → List CLine) : Prop where
  sets : ∀ h r args os, ConfigCall kdir cfg args r → decodeArgs args = some os → w.status h r = some 0 →
    file (h ++ [r]) = setOpts (file h) os
  asks : ∀ h r n, ConfigCall kdir cfg [cs!"-s", n] r → file (h ++ [r]) = file h

end Verif.Spec
