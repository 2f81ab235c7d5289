import Verif.Model.Arch
/-! # Model of kconfig.py

Effects are recorded as a trace of events (script invocations and log lines) beside the result, so that what
happened before an exception stays visible. The script's answer to `-s NAME` comes from an oracle. -/
set_option autoImplicit false

namespace Verif

/-- `s.split('=', 1)` unpacked in two names; `ValueError` when there is no `=` -/
def splitEq (s : Str) : Res (Str × Str) :=
  match findChar '=' s with
  | some i => .ok (s.take i, s.drop (i + 1))
  | none => .error .value

/-- kconfig.py:28-31 `kconfig_syscall_deps`. `archTab` and `globalTab` are the two tables already looked up at
the kernel version. -/
def kconfigSyscallDeps (archTab globalTab : Dict Str Str) (name : Str) : Option Str :=
  let opt := dget name archTab
  let opt := match opt with
    | some (c :: cs) => some (c :: cs)
    | _ => dget name globalTab
  match opt with
  | some (c :: cs) => some (cs!"CONFIG_" ++ (c :: cs))
  | _ => none

/-- kconfig.py:28-31 on the shipped tables -/
def shippedSyscallDeps (k : Kind) (v : Ver) (name : Str) : Option Str :=
  kconfigSyscallDeps ((VDict.init k.syscallDepsTable).getItem v).1 ((VDict.init kconfigSyscallDepsTable).getItem v).1 name

/-- kconfig.py:44-47 body of the loop -/
def parseConfigLine (config : Dict Str Str) (line : Str) : Res (Dict Str Str) := do
  let (name, val) ← splitEq line
  pyAssert (startsWith name cs!"CONFIG_")
  .ok (dset (name.drop 7) val config)

/-- kconfig.py:44-47 the loop -/
def parseConfigGo : Dict Str Str → List Str → Res (Dict Str Str)
  | config, [] => .ok config
  | config, l :: ls => do
    let config ← parseConfigLine config l
    parseConfigGo config ls

/-- kconfig.py:39-49 `parse_config` on the lines of the file (with their newlines) -/
def parseConfig (lines : List Str) : Res (Dict Str Str) :=
  parseConfigGo [] ((lines.map strip).filter fun l => !l.isEmpty && !startsWith l cs!"#")

/-- kconfig.py:58-67 arguments for one option -/
def optionArgs (opt : Str) : Res (List Str) := do
  let (name, val) ← splitEq opt
  if val = cs!"y" then .ok [cs!"-e", name]
  else if val = cs!"n" then .ok [cs!"-d", name]
  else if val = cs!"m" then .ok [cs!"-m", name]
  else .ok [cs!"--set-val", name, val]

/-- kconfig.py:56-67 the whole `args` list -/
def editArgs : List Str → Res (List Str)
  | [] => .ok []
  | o :: os => do
    let a ← optionArgs o
    let as ← editArgs os
    .ok (a ++ as)

/-- What kconfig.py does to the outside: run `./scripts/config --file CONFIG args`, or log. -/
inductive KEvent where
  /-- kconfig.py:33-34 `run_config_script` with these `args` -/
  | script (args : List Str)
  /-- kconfig.py:107 `logging.warning` for option and dependency -/
  | warn (opt dep : Str)
  /-- kconfig.py:111 `logging.error` for option and dependency -/
  | error (opt dep : Str)
  deriving DecidableEq

/-- kconfig.py:52-69 `edit_config` -/
def editConfig (options : List Str) : List KEvent × Res Unit :=
  if options.isEmpty then ([], .ok ())
  else match editArgs options with
    | .error x => ([], .error x)
    | .ok args => ([.script args], .ok ())

/-- the arguments of the script invocations in a trace -/
def scriptsOf : List KEvent → List (List Str)
  | [] => []
  | .script as :: es => as :: scriptsOf es
  | _ :: es => scriptsOf es

/-- kconfig.py:82-91 the value of a dependency; `or` falls through on the empty string.
`defaults` is the standard output of `./scripts/config -s NAME` after the invocations of the script so far in this call. -/
def depActual (toset config : Dict Str Str) (defaults : List (List Str) → Str → Str) (before : List (List Str)) (name : Str) :
    List KEvent × Option Str :=
  let a := match dget name toset with
    | some (c :: cs) => some (c :: cs)
    | _ => dget name config
  match a with
  | some x => ([], some x)
  | none =>
    let d := strip (defaults before name)
    ([.script [cs!"-s", name]], if d = cs!"undef" then none else some d)

/-- kconfig.py:80-112 body of the inner loop -/
def checkDep (toset config : Dict Str Str) (defaults : List (List Str) → Str → Str) (before : List (List Str)) (opt dep : Str) :
    List KEvent × Res Unit :=
  match splitEq dep with
  | .error x => ([], .error x)
  | .ok (name, wanted) =>
    let (evs, actual) := depActual toset config defaults before name
    if actual ≠ some wanted then
      if wanted = cs!"n" ∧ actual = none then (evs, .ok ())
      else if wanted = cs!"y" ∧ (actual = some cs!"n" ∨ actual = none) ∧ anyprefix name [cs!"HAVE_", cs!"ARCH_HAS_"] = true then
        (evs ++ [.warn opt dep], .ok ())
      else (evs ++ [.error opt dep], .ok ())
    else (evs, .ok ())

/-- kconfig.py:79-112 the two nested loops, flattened in iteration order -/
def checkDeps (toset config : Dict Str Str) (defaults : List (List Str) → Str → Str) :
    List (List Str) → List (Str × Str) → List KEvent × Res Unit
  | _, [] => ([], .ok ())
  | before, (opt, dep) :: rest =>
    match checkDep toset config defaults before opt dep with
    | (evs, .error x) => (evs, .error x)
    | (evs, .ok ()) =>
      let (evs', r) := checkDeps toset config defaults (before ++ scriptsOf evs) rest
      (evs ++ evs', r)

/-- kconfig.py:77 `dict(map(lambda x: x.split('=', 1), options))`. A one-element list makes `dict` raise
`ValueError`, as `splitEq` does. -/
def tosetOf : List Str → Res (Dict Str Str)
  | [] => .ok []
  | o :: os => do
    let kv ← splitEq o
    let d ← tosetOf os
    .ok (dupdate [kv] d)

/-- kconfig.py:73-113 `edit_config_check_deps` -/
def editConfigCheckDeps (configLines : List Str) (defaults : List (List Str) → Str → Str) (options : Dict Str (List Str)) :
    List KEvent × Res Unit :=
  if options.isEmpty then ([], .ok ())
  else match tosetOf (options.map Prod.fst) with
    | .error x => ([], .error x)
    | .ok toset =>
      match parseConfig configLines with
      | .error x => ([], .error x)
      | .ok config =>
        match checkDeps toset config defaults [] (options.flatMap fun od => od.2.map fun d => (od.1, d)) with
        | (evs, .error x) => (evs, .error x)
        | (evs, .ok ()) =>
          let (evs', r) := editConfig (options.map Prod.fst)
          (evs ++ evs', r)

/-! ## Histories of architecture objects -/

/-- what a program can do with `Arch` classes that touches the class-level tables -/
inductive ArchOp where
  /-- construct an object (arch_base.py:64 and the constructors); a failed assert leaves the tables alone -/
  | create (k : Kind) (v : Ver) (abi : Str) (bits32 : Bool)
  /-- read `arch.kconfig[v]` of an object of that class (kernel.py:674) -/
  | lookup (k : Kind) (v : Ver)
  deriving DecidableEq

/-- effect of one operation on the class-level tables -/
def ArchOp.step (st : KStore) : ArchOp → KStore
  | .create k v abi bits32 =>
    match createArch st k v abi bits32 with
    | .ok (_, st') => st'
    | .error _ => st
  | .lookup k v => fun k' => if k' = k then ((st k).getItem v).2 else st k'

/-- effect of a history -/
def runArchOps (st : KStore) (h : List ArchOp) : KStore := h.foldl ArchOp.step st

end Verif
