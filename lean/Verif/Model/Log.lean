import Verif.Model.Main
/-! # Standard error

What a run writes to standard error: lines of `eprint`, records of the `logging` module as formatted by `setup_logging`, the
line of the SIGINT handler and the traceback of an exception nobody catches. -/
set_option autoImplicit false

namespace Verif

/-- the levels of `logging` -/
inductive LogLevel | debug | info | warning | error | critical
  deriving DecidableEq, Repr

/-- `levelno` -/
def LogLevel.num : LogLevel → Nat
  | .debug => 10
  | .info => 20
  | .warning => 30
  | .error => 40
  | .critical => 50

/-- `levelname` as set by `logging` -/
def LogLevel.name : LogLevel → Str
  | .debug => cs!"DEBUG"
  | .info => cs!"INFO"
  | .warning => cs!"WARNING"
  | .error => cs!"ERROR"
  | .critical => cs!"CRITICAL"

/-- __main__.py:119, 126 `'FATAL' if record.levelno == logging.CRITICAL else record.levelname[0]` -/
def LogLevel.shortName (l : LogLevel) : Str := if l.num = 50 then cs!"FATAL" else l.name.take 1

/-- __main__.py:107-113, 118 `level_colors.get(lvl, '')` -/
def LogLevel.color : LogLevel → Str
  | .critical => cs!"\x1b[1;31m"
  | .error => cs!"\x1b[31m"
  | .warning => cs!"\x1b[33m"
  | .info => cs!"\x1b[32m"
  | .debug => cs!"\x1b[34m"

/-- __main__.py:106, 123 the format applied to a record -/
def logLine (colors : Bool) (l : LogLevel) (msg : Str) : Str :=
  if colors then l.color ++ cs!"[" ++ l.shortName ++ cs!"] " ++ msg ++ cs!"\x1b[0m"
  else cs!"[" ++ l.shortName ++ cs!"] " ++ msg

/-- something that writes to standard error -/
inductive ErrEvent
  /-- `eprint(msg)` -/
  | say (msg : Str)
  /-- a call of the logger; `none` if the arguments do not fit the format -/
  | log (l : LogLevel) (text : Option Str)
  /-- SIGINT arrives -/
  | sigint
  /-- an exception other than SystemExit leaves `main`; the text is its traceback -/
  | uncaught (traceback : Str)
  deriving DecidableEq

/-- what it writes; `lost` is the traceback `logging.Handler.handleError` shows for a record that cannot be formatted.
__main__.py:19-21, 88-130, utils.py:134-139, and `logging.StreamHandler.emit`, which ends the line -/
def ErrEvent.text (v : Verbosity) (colors : Bool) (lost : Str) : ErrEvent → Str
  | .say msg => if v.silent then [] else msg ++ ['\n']
  | .log l t =>
    if v.shows l.num then
      match t with
      | some msg => logLine colors l msg ++ ['\n']
      | none => lost
    else []
  | .sigint => cs!"Caught SIGINT, stopping\n"
  | .uncaught tb => tb

/-- standard error of a run: `quiet` and `verbose` count the options, `colors` tells whether it is a terminal
(__main__.py:161 `os.isatty`) -/
def stderrText (quiet verbose : Nat) (colors : Bool) (lost : Str) (evs : List ErrEvent) : Str :=
  evs.flatMap (ErrEvent.text (setupLogging quiet verbose) colors lost)

end Verif
