import Verif.Model.Popen
import Verif.Spec.Utils
import Verif.Spec.Kernel
/-! # Reading what is told about a command

A reader of Python literals (strings, and lists and tuples of strings and paths), and of the message about a failing command. -/
set_option autoImplicit false

namespace Verif.Spec

/-- value of hexadecimal digits -/
def hexValue (s : Str) : Nat := s.foldl (fun n c => 16 * n + (if c.toNat < 58 then c.toNat - 48 else c.toNat - 87)) 0

/-- the rest of a string literal after the opening quote `q`: its value, and what follows the closing quote -/
def readPyString (q : Char) : Str → Option (Str × Str)
  | [] => none
  | '\\' :: 't' :: cs => (readPyString q cs).map fun r => ('\t' :: r.1, r.2)
  | '\\' :: 'n' :: cs => (readPyString q cs).map fun r => ('\n' :: r.1, r.2)
  | '\\' :: 'r' :: cs => (readPyString q cs).map fun r => ('\r' :: r.1, r.2)
  | '\\' :: 'x' :: a :: b :: cs => (readPyString q cs).map fun r => (Char.ofNat (hexValue [a, b]) :: r.1, r.2)
  | '\\' :: 'u' :: a :: b :: c :: d :: cs =>
    (readPyString q cs).map fun r => (Char.ofNat (hexValue [a, b, c, d]) :: r.1, r.2)
  | '\\' :: 'U' :: a :: b :: c :: d :: e :: f :: g :: h :: cs =>
    (readPyString q cs).map fun r => (Char.ofNat (hexValue [a, b, c, d, e, f, g, h]) :: r.1, r.2)
  | '\\' :: c :: cs => (readPyString q cs).map fun r => (c :: r.1, r.2)
  | c :: cs => if c = q then some ([], cs) else (readPyString q cs).map fun r => (c :: r.1, r.2)

/-- a string or a path -/
def readWord : Str → Option (CmdWord × Str)
  | '\'' :: cs => (readPyString '\'' cs).map fun r => (.str r.1, r.2)
  | '"' :: cs => (readPyString '"' cs).map fun r => (.str r.1, r.2)
  | 'P' :: 'o' :: 's' :: 'i' :: 'x' :: 'P' :: 'a' :: 't' :: 'h' :: '(' :: q :: cs =>
    if q = '\'' ∨ q = '"' then
      match readPyString q cs with
      | some (s, ')' :: rest) => some (.path s, rest)
      | _ => none
    else none
  | _ => none

/-- words separated by commas, up to the closing bracket (the first argument bounds their number) -/
def readWords (close : Char) : Nat → Str → Option (List CmdWord × Str)
  | 0, _ => none
  | n + 1, s =>
    match readWord s with
    | none => none
    | some (w, rest) =>
      match rest with
      | ',' :: ' ' :: more => (readWords close n more).map fun r => (w :: r.1, r.2)
      | ',' :: c :: more => if c = close then some ([w], more) else none
      | c :: more => if c = close then some ([w], more) else none
      | [] => none

/-- a list or a tuple of words -/
def readCommand : Str → Option (CmdArg × Str)
  | '[' :: ']' :: rest => some (.list [], rest)
  | '(' :: ')' :: rest => some (.tuple [], rest)
  | '[' :: cs => (readWords ']' (cs.length + 1) cs).map fun r => (.list r.1, r.2)
  | '(' :: cs => (readWords ')' (cs.length + 1) cs).map fun r => (.tuple r.1, r.2)
  | _ => none

/-- a whole number, and what follows -/
def readInt (s : Str) : Int × Str :=
  match s with
  | '-' :: t => (-(decimal (t.takeWhile isDigit) : Int), t.dropWhile isDigit)
  | t => ((decimal (t.takeWhile isDigit) : Int), t.dropWhile isDigit)

/-- undo an indentation: the first character of each line that is not blank is dropped -/
def unindent (s : Str) : Str := (keepLines s).flatMap fun l => if l.any (fun c => !isSpace c) then l.drop 1 else l

/-- what a message tells about the standard error of the command -/
inductive ErrTold where
  /-- nothing (it went to the console) -/
  | nothing
  /-- that there was none -/
  | empty
  | text (s : Str)
  deriving DecidableEq

/-- what a message about a failing command tells: the status, the command, and its standard error -/
def readFailure (msg : Str) : Option (Int × CmdArg × ErrTold) :=
  if startsWith msg cs!"Command returned " then
    match readInt (msg.drop 17) with
    | (n, ':' :: ' ' :: t) =>
      match readCommand t with
      | some (c, []) => some (n, c, .nothing)
      | some (c, '\n' :: e) => some (n, c, .text (unindent e))
      | some (c, e) => if e = cs!" (no stderr output)" then some (n, c, .empty) else none
      | none => none
    | _ => none
  else none

/-- what should be told about standard error: all of it, unless it is blank -/
def errTold (console : Bool) (err : Str) : ErrTold :=
  if console then .nothing else if err.all isSpace then .empty else .text err

/-- the command that is run: the words, or the words the shell makes of the line -/
def RunsWords (c : CmdArg) (words : List Str) : Prop :=
  match c with
  | .shell s => shellWords .none none s = some words
  | .list ws => ws.map CmdWord.word = words
  | .tuple ws => ws.map CmdWord.word = words

end Verif.Spec
