import Verif.Model.Main
/-! # Model of the command line parser, /repo/src/systrack/__main__.py lines 30-86

`parse_args` declares a table of options and hands the command line to Python's `argparse`. The table is that of the
repository; the algorithm is `ArgumentParser.parse_args` of CPython 3.11.10 (the same text as 3.12.3), cited below as
"argparse", restricted to what this parser uses: one positional with `nargs='?'`, options without or with exactly one value,
no groups, no sub-parsers, no prefix files. Where Python walks over indices of the argument list and of a string of
letters `O`, `A`, `-`, the model walks over the list itself, each argument paired with its letter.
Messages are not modelled, only how parsing ends. -/
set_option autoImplicit false

namespace Verif

/-- __main__.py:40-84 the options, `-h` included (argparse adds it: `add_help`) -/
inductive Opt where
  | help | kdir | arch | build | config | clean | cross | out | format | absolutePaths | remap | checkout | disableOpt
  | quiet | verbose | version
  deriving DecidableEq, Repr

/-- __main__.py:40-84 `_option_string_actions`: the option strings, in order of declaration -/
def optionStrings : Dict Str Opt :=
  [(cs!"-h", .help), (cs!"--help", .help), (cs!"-k", .kdir), (cs!"--kdir", .kdir), (cs!"-a", .arch), (cs!"--arch", .arch),
   (cs!"-b", .build), (cs!"--build", .build), (cs!"-c", .config), (cs!"--config", .config), (cs!"-C", .clean),
   (cs!"--clean", .clean), (cs!"-x", .cross), (cs!"--cross", .cross), (cs!"-o", .out), (cs!"--out", .out),
   (cs!"-f", .format), (cs!"--format", .format), (cs!"--absolute-paths", .absolutePaths), (cs!"--remap", .remap),
   (cs!"--checkout", .checkout), (cs!"--disable-opt", .disableOpt), (cs!"-q", .quiet), (cs!"--quiet", .quiet),
   (cs!"-v", .verbose), (cs!"--verbose", .verbose), (cs!"-V", .version), (cs!"--version", .version)]

/-- __main__.py:40-84 does the option take a value (`nargs=None`) or none (`nargs=0`: `store_true`, `count`, `version`, `help`) -/
def Opt.takesValue : Opt → Bool
  | .kdir | .arch | .cross | .out | .format | .remap | .checkout => true
  | _ => false

/-- how parsing ends other than normally: `--help` (status 0), `--version` (status 0), a usage error (status 2) -/
inductive Stop where
  | help | version | usage
  deriving DecidableEq, Repr

/-- the exit status: argparse `_HelpAction`, `_VersionAction`, `error` -/
def Stop.status : Stop → Nat
  | .help => 0
  | .version => 0
  | .usage => 2

/-- code points of the characters for zero in each block of decimal digits (Unicode 14, category Nd): Python's `\d` -/
def digitZeros : List Nat :=
  [48, 1632, 1776, 1984, 2406, 2534, 2662, 2790, 2918, 3046, 3174, 3302, 3430, 3558, 3664, 3792, 3872, 4160, 4240, 6112,
   6160, 6470, 6608, 6784, 6800, 6992, 7088, 7232, 7248, 42528, 43216, 43264, 43472, 43504, 43600, 44016, 65296, 66720,
   68912, 69734, 69872, 69942, 70096, 70384, 70736, 70864, 71248, 71360, 71472, 71904, 72016, 72784, 73040, 73120, 92768,
   92864, 93008, 120782, 120792, 120802, 120812, 120822, 123200, 123632, 125264, 130032]

/-- `\d` -/
def reDigit (c : Char) : Bool := digitZeros.any fun z => decide (z ≤ c.toNat ∧ c.toNat < z + 10)

/-- `\d+$`: the `$` also matches before a final newline -/
def digitsEnd (s : Str) : Bool :=
  decide (s.takeWhile reDigit ≠ []) && decide (s.dropWhile reDigit = [] ∨ s.dropWhile reDigit = ['\n'])

/-- argparse `_negative_number_matcher`: `^-\d+$|^-\d*\.\d+$` -/
def negativeNumber : Str → Bool
  | '-' :: s =>
    digitsEnd s || (match s.dropWhile reDigit with | '.' :: t => digitsEnd t | _ => false)
  | _ => false

/-- `s.partition('=')`: what precedes the first `=`, and what follows it (`none` when there is none) -/
def partitionEq : Str → Str × Option Str
  | [] => ([], none)
  | c :: cs => if c = '=' then ([], some cs) else ((c :: (partitionEq cs).1), (partitionEq cs).2)

/-- an argument taken for an option: argparse `(action, option_string, sep, explicit_arg)`; `sep` says whether it is `'='`
(the other values, `None` and `''`, are not told apart) -/
structure OptTok where
  opt : Option Opt
  name : Str
  sep : Bool
  explicit : Option Str
  deriving DecidableEq, Repr

/-- argparse `_get_option_tuples` (the last branch, an argument not beginning with `-`, does not happen: see `parseOptional`) -/
def optionTuples (s : Str) : List OptTok :=
  match s with
  | '-' :: '-' :: _ =>
    (optionStrings.filter fun o => startsWith o.1 (partitionEq s).1).map fun o =>
      ⟨some o.2, o.1, (partitionEq s).2.isSome, (partitionEq s).2⟩
  | _ =>
    optionStrings.filterMap fun o =>
      if o.1 = s.take 2 then some ⟨some o.2, o.1, false, some (s.drop 2)⟩
      else if startsWith o.1 s then some ⟨some o.2, o.1, false, none⟩
      else none

/-- argparse `_parse_optional`: `none` when the argument is not taken for an option -/
def parseOptional (s : Str) : Except Stop (Option OptTok) :=
  if s.head? ≠ some '-' then .ok none
  else match dget s optionStrings with
  | some o => .ok (some ⟨some o, s, false, none⟩)
  | none =>
    if s.length = 1 then .ok none
    else match (partitionEq s).2, dget (partitionEq s).1 optionStrings with
    | some x, some o => .ok (some ⟨some o, (partitionEq s).1, true, some x⟩)
    | _, _ =>
      match optionTuples s with
      | _ :: _ :: _ => .error .usage
      | [t] => .ok (some t)
      | [] =>
        if negativeNumber s then .ok none
        else if s.contains ' ' then .ok none
        else .ok (some ⟨none, s, false, none⟩)

/-- an argument and what it is taken for: argparse `arg_strings_pattern` -/
inductive Tok where
  /-- `A` -/
  | arg (s : Str)
  /-- `-`: the first `--` -/
  | dashes
  /-- `O` -/
  | opt (s : Str) (t : OptTok)
  deriving DecidableEq, Repr

/-- the argument itself -/
def Tok.str : Tok → Str
  | .arg s => s
  | .dashes => cs!"--"
  | .opt s _ => s

/-- is it an `O` -/
def Tok.isOpt : Tok → Bool
  | .opt _ _ => true
  | _ => false

/-- argparse `_parse_known_args`: the loop that finds the options -/
def classify : List Str → Except Stop (List Tok)
  | [] => .ok []
  | s :: ss =>
    if s = cs!"--" then .ok (.dashes :: ss.map .arg)
    else do
      let t ← parseOptional s
      let ts ← classify ss
      match t with
      | none => .ok (.arg s :: ts)
      | some o => .ok (.opt s o :: ts)

/-- what `consume_optional` finds out: the actions with their values, unrecognized arguments, and whether the following
argument was taken as a value -/
structure Consumed where
  acts : List (Opt × Option Str)
  extras : List Str := []
  next : Bool := false

/-- argparse `consume_optional` without an explicit value: `match_argument` on the following letters -/
def noExplicit (o : Opt) (rest : List Tok) : Except Stop Consumed :=
  if o.takesValue then
    match rest with
    | .arg s :: _ => .ok { acts := [(o, some s)], next := true }
    | _ => .error .usage
  else .ok { acts := [(o, none)] }

/-- argparse `consume_optional` with an explicit value: either the value of the option or, for `-xyz`, further options.
The fuel is the length of the value: every further option takes a character. -/
def withExplicit (rest : List Tok) : Nat → Opt → Bool → Bool → Str → Except Stop Consumed
  | fuel, o, long, sep, x =>
    if o.takesValue then .ok { acts := [(o, some x)] }
    else if long then .error .usage
    else match fuel, x with
    | _, [] => .error .usage
    | 0, _ :: _ => .error .usage
    | fuel + 1, c :: cs =>
      if sep || c = '-' then .error .usage
      else match dget ['-', c] optionStrings with
      | none => .ok { acts := [(o, none)], extras := ['-' :: c :: cs] }
      | some o' => do
        let r ← match cs with
          | [] => noExplicit o' rest
          | '=' :: cs' => withExplicit rest fuel o' false true cs'
          | _ => withExplicit rest fuel o' false false cs
        .ok { r with acts := (o, none) :: r.acts }

/-- argparse `consume_optional` -/
def consumeOptional (s : Str) (t : OptTok) (rest : List Tok) : Except Stop Consumed :=
  match t.opt with
  | none => .ok { acts := [], extras := [s] }
  | some o =>
    match t.explicit with
    | some x => withExplicit rest x.length o (decide (t.name.drop 1 |>.head? |> (· = some '-'))) t.sep x
    | none => noExplicit o rest

/-- __main__.py:57 `choices` -/
def formatOf (s : Str) : Option Format := dget s [(cs!"text", .text), (cs!"json", .json), (cs!"html", .html)]

/-- argparse `take_action` for an option: what it does to the namespace. The absent value of an option that takes one
does not happen (`noExplicit`, `withExplicit`); it is an error here. -/
def takeAction (a : Args) : Opt × Option Str → Except Stop Args
  | (.help, _) => .error .help
  | (.version, _) => .error .version
  | (.build, _) => .ok { a with build := true }
  | (.config, _) => .ok { a with config := true }
  | (.clean, _) => .ok { a with clean := true }
  | (.absolutePaths, _) => .ok { a with absolutePaths := true }
  | (.disableOpt, _) => .ok { a with disableOpt := true }
  | (.quiet, _) => .ok { a with quiet := a.quiet + 1 }
  | (.verbose, _) => .ok { a with verbose := a.verbose + 1 }
  | (.kdir, some x) => .ok { a with kdir := some x }
  | (.arch, some x) => .ok { a with arch := some x }
  | (.cross, some x) => .ok { a with cross := some x }
  | (.out, some x) => .ok { a with out := some x }
  | (.remap, some x) => .ok { a with remap := some x }
  | (.checkout, some x) => .ok { a with checkout := some x }
  | (.format, some x) =>
    match formatOf x with
    | some f => .ok { a with format := f }
    | none => .error .usage
  | (.kdir, none) | (.arch, none) | (.cross, none) | (.out, none) | (.remap, none) | (.checkout, none) | (.format, none) =>
    .error .usage

/-- the actions of one argument, in order -/
def takeActions (a : Args) : List (Opt × Option Str) → Except Stop Args
  | [] => .ok a
  | x :: xs => do
    let a ← takeAction a x
    takeActions a xs

/-- argparse `_get_nargs_pattern` for the positional, `(-*A?-*)`: the number of letters matched (there is at most one `-`) -/
def positionalCount : List Tok → Nat
  | .dashes :: .arg _ :: _ => 2
  | .dashes :: _ => 1
  | .arg _ :: .dashes :: _ => 2
  | .arg _ :: _ => 1
  | _ => 0

/-- argparse `_get_values` for the positional: the first `--` is removed, no argument means the default -/
def positionalValue (ss : List Str) : Option Str := (ss.erase cs!"--").head?

/-- argparse `consume_positionals`: `avail` says whether the positional is still to be parsed -/
def consumePositionals (avail : Bool) (a : Args) (ts : List Tok) : Bool × Args × List Tok :=
  if avail then
    let n := positionalCount ts
    (false, { a with vmlinux := positionalValue ((ts.take n).map Tok.str) }, ts.drop n)
  else (false, a, ts)

/-- argparse `_parse_known_args`: the main loop and what follows it. Every turn consumes an argument: the fuel is the number
of arguments. The result is the namespace and the unrecognized arguments. -/
def parseLoop : Nat → Bool → Args → List Str → List Tok → Except Stop (Args × List Str)
  | fuel, avail, a, extras, ts =>
    if ts.any Tok.isOpt then
      match fuel, ts with
      | fuel + 1, .opt s t :: rest => do
        let c ← consumeOptional s t rest
        let a ← takeActions a c.acts
        parseLoop fuel avail a (extras ++ c.extras) (if c.next then rest.drop 1 else rest)
      | fuel + 1, t :: rest =>
        if avail then
          let r := consumePositionals avail a (t :: rest)
          parseLoop fuel r.1 r.2.1 extras r.2.2
        else
          parseLoop fuel avail a (extras ++ ((t :: rest).takeWhile fun x => !x.isOpt).map Tok.str)
            ((t :: rest).dropWhile fun x => !x.isOpt)
      | _, _ => .error .usage
    else
      let r := consumePositionals avail a ts
      .ok (r.2.1, extras ++ r.2.2.map Tok.str)

/-- __main__.py:30-86 `parse_args`: argparse `parse_args` refuses unrecognized arguments -/
def parseArgs (argv : List Str) : Except Stop Args := do
  let ts ← classify argv
  let r ← parseLoop ts.length true {} [] ts
  if r.2 = [] then .ok r.1 else .error .usage

/-- __main__.py:158-321 the program, from `sys.argv[1:]`: parsing, then `main`. The help and version texts, and the usage
messages, are not modelled. -/
def systrack (w : MWorld) (archHelp : Str) (argv : List Str) : MM Nat :=
  match parseArgs argv with
  | .ok args => main w archHelp args
  | .error e => MM.raise (.exit e.status)

end Verif
