import Verif.Model.Main
/-! # What is told about external commands

`do_popen`, `run_command` and `ensure_command` with the messages they log (all of level CRITICAL). -/
set_option autoImplicit false

namespace Verif

/-! ## `repr` of the command -/

/-- one lowercase hexadecimal digit -/
def hexDigit (n : Nat) : Char := if n < 10 then Char.ofNat (48 + n) else Char.ofNat (87 + n)

/-- the last `k` hexadecimal digits of a number -/
def hexFixed : Nat → Nat → Str
  | 0, _ => []
  | k + 1, n => hexFixed k (n / 16) ++ [hexDigit (n % 16)]

/-- one character inside `repr(s)` (CPython `unicode_repr`), for the quote `q`; `printable` is `str.isprintable` outside ASCII.
Lone surrogates (file names that are not UTF-8) are not modelled. -/
def reprChar (printable : Char → Bool) (q c : Char) : Str :=
  if c = q ∨ c = '\\' then ['\\', c]
  else if c = '\t' then cs!"\\t"
  else if c = '\n' then cs!"\\n"
  else if c = '\r' then cs!"\\r"
  else if c.toNat < 32 ∨ c.toNat = 127 then '\\' :: 'x' :: hexFixed 2 c.toNat
  else if c.toNat < 127 then [c]
  else if printable c then [c]
  else if c.toNat ≤ 0xff then '\\' :: 'x' :: hexFixed 2 c.toNat
  else if c.toNat ≤ 0xffff then '\\' :: 'u' :: hexFixed 4 c.toNat
  else '\\' :: 'U' :: hexFixed 8 c.toNat

/-- the quote used by `repr(s)` -/
def reprQuote (s : Str) : Char := if s.contains '\'' && !s.contains '"' then '"' else '\''

/-- `repr(s)` of a `str` -/
def strRepr (printable : Char → Bool) (s : Str) : Str :=
  reprQuote s :: s.flatMap (reprChar printable (reprQuote s)) ++ [reprQuote s]

/-- a word of a command: a `str`, or a `Path` given by its `str` -/
inductive CmdWord where
  | str (s : Str)
  | path (s : Str)
  deriving DecidableEq, Repr

/-- the word as the command gets it -/
def CmdWord.word : CmdWord → Str
  | .str s => s
  | .path s => s

/-- `repr` of a word; pathlib: `"{}({!r})".format(self.__class__.__name__, self.as_posix())` -/
def CmdWord.repr (printable : Char → Bool) : CmdWord → Str
  | .str s => strRepr printable s
  | .path s => cs!"PosixPath(" ++ strRepr printable s ++ cs!")"

/-- the `cmd` argument: a `str` (run by the shell), a list or a tuple -/
inductive CmdArg where
  | shell (s : Str)
  | list (ws : List CmdWord)
  | tuple (ws : List CmdWord)
  deriving DecidableEq, Repr

/-- `'%s' % cmd` -/
def CmdArg.shown (printable : Char → Bool) : CmdArg → Str
  | .shell s => s
  | .list ws => '[' :: joinWith cs!", " (ws.map (CmdWord.repr printable)) ++ cs!"]"
  | .tuple [w] => '(' :: w.repr printable ++ cs!",)"
  | .tuple ws => '(' :: joinWith cs!", " (ws.map (CmdWord.repr printable)) ++ cs!")"

/-- utils.py:187 `cmd.split()[0] if isinstance(cmd, str) else cmd[0]`, shown with `%s` -/
def CmdArg.first : CmdArg → Res Str
  | .shell s => match splitWs s with | [] => .error .index | x :: _ => .ok x
  | .list [] => .error .index
  | .list (w :: _) => .ok w.word
  | .tuple [] => .error .index
  | .tuple (w :: _) => .ok w.word

/-! ## Indentation -/

/-- `str.splitlines(True)`; the second argument is the current line -/
def keepLinesGo : Str → Str → List Str
  | [], cur => if cur.isEmpty then [] else [cur]
  | '\r' :: '\n' :: cs, cur => (cur ++ ['\r', '\n']) :: keepLinesGo cs []
  | c :: cs, cur => if isLineEnd c then (cur ++ [c]) :: keepLinesGo cs [] else keepLinesGo cs (cur ++ [c])

/-- `str.splitlines(True)` -/
def keepLines (s : Str) : List Str := keepLinesGo s []

/-- `textwrap.indent(s, '\t')` -/
def indentTab (s : Str) : Str := (keepLines s).flatMap fun l => if strip l ≠ [] then '\t' :: l else l

/-! ## Running -/

/-- what becomes of a command: `Popen` raises FileNotFoundError, NotADirectoryError or another OSError, or the command ends
with a status (negative when killed by a signal) having written these texts -/
inductive Outcome where
  | notFound
  | notDir
  | denied
  | ended (status : Int) (out err : Str)
  deriving DecidableEq

/-- `'%d' % n` -/
def intRepr (n : Int) : Str := if n < 0 then '-' :: natRepr n.natAbs else natRepr n.natAbs

/-- `'%s' % cwd` -/
def cwdStr : Option Path → Str
  | none => cs!"None"
  | some p => p.str

/-- utils.py:177-195 `do_popen`: messages, and whether there is a child. `cwdExists` is `cwd.exists()`; without a `cwd` this
raises AttributeError. -/
def doPopen (cmd : CmdArg) (cwd : Option Path) (cwdExists : Bool) : Outcome → List Str × Res (Option (Int × Str × Str))
  | .ended st out err => ([], .ok (some (st, out, err)))
  | .notFound =>
    match cwd with
    | none => ([], .error .attr)
    | some p =>
      if cwdExists then
        match cmd.first with
        | .error e => ([], .error e)
        | .ok c => ([cs!"Command not found: " ++ c], .ok none)
      else ([cs!"Directory does not exist: " ++ p.str], .ok none)
  | .notDir => ([cs!"Path is not a directory: " ++ cwdStr cwd], .ok none)
  | .denied => ([], .error (.named "OSError"))

/-- utils.py:215-236 `run_command`: messages and the status -/
def runTold (cmd : CmdArg) (cwd : Option Path) (cwdExists : Bool) (o : Outcome) : List Str × Res Int :=
  match doPopen cmd cwd cwdExists o with
  | (ms, .error e) => (ms, .error e)
  | (ms, .ok none) => (ms, .ok 127)
  | (ms, .ok (some r)) => (ms, .ok r.1)

/-- utils.py:269-272 what is appended about standard error; with console output it is not captured -/
def errTail (console : Bool) (err : Str) : Str :=
  if console then [] else if strip err ≠ [] then '\n' :: indentTab err else cs!" (no stderr output)"

/-- utils.py:238-277 `ensure_command`: messages and the captured output. Simplification: the output is given also when it is
not captured (nobody uses it then). -/
def ensureTold (printable : Char → Bool) (cmd : CmdArg) (cwd : Option Path) (cwdExists console : Bool) (o : Outcome) :
    List Str × Res Str :=
  match doPopen cmd cwd cwdExists o with
  | (ms, .error e) => (ms, .error e)
  | (ms, .ok none) => (ms, .error (.exit 127))
  | (ms, .ok (some r)) =>
    if r.1 ≠ 0 then
      (ms ++ [cs!"Command returned " ++ intRepr r.1 ++ cs!": " ++ cmd.shown printable ++ errTail console r.2.2], .error (.exit 1))
    else (ms, .ok r.2.1)

end Verif
