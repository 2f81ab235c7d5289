import Verif.Model.Build
/-! # The Makefile on disk, step by step, /repo/src/systrack/kernel.py:587-611 and 677-710

`Model/Build` lets one interruption happen at a few points. Here every statement that touches the Makefile is a step of its own,
SIGINT may arrive between any two of them and any number of times, also while exit handlers run, and all contents that the file
has on disk in the course of time are recorded: one of them is what is left when the process is killed. -/
set_option autoImplicit false

namespace Verif

/-- points in `__try_set_optimization_level` (kernel.py:587-602) -/
inductive PatchPoint where
  /-- before the file is opened -/
  | start
  /-- before it is read -/
  | opened
  /-- before its text is kept in `self.__backup_makefile` -/
  | read
  /-- before `f.seek` -/
  | saved
  /-- before the search and `f.write` -/
  | sought
  /-- before `f.truncate` -/
  | wrote
  /-- before the file is closed -/
  | truncated
  /-- after that -/
  | closed
  deriving DecidableEq

/-- points in `__restore_makefile` (kernel.py:604-611) -/
inductive RestorePoint where
  /-- before the file is opened, which empties it -/
  | start
  /-- before `f.write` -/
  | opened
  /-- before the file is closed -/
  | wrote
  /-- before the function is unregistered -/
  | closed
  deriving DecidableEq

/-- when SIGINT may arrive; each point is passed at most once in the life of a process -/
inductive Moment where
  | patch (lvl : Nat) (p : PatchPoint)
  /-- between the registration of the exit handler and the return of `make` -/
  | make (lvl : Nat)
  | restore (lvl : Nat) (p : RestorePoint)
  /-- while the exit handler runs -/
  | handler (p : RestorePoint)
  /-- during the last `make` -/
  | last
  deriving DecidableEq

structure CState where
  /-- content of KDIR/Makefile on disk -/
  disk : Str
  /-- contents it had since the process began, the present one included -/
  seen : List Str := []
  /-- text written to the open file and not on disk yet -/
  pending : Option Str := none
  /-- `self.__backup_makefile` -/
  backup : Option Str := none
  /-- whether `__restore_makefile` is registered with `atexit` -/
  handler : Bool := false

/-- actions; the error is `SystemExit` -/
def CM (α : Type) := CState → Option α × CState

def CM.pure {α : Type} (x : α) : CM α := fun s => (some x, s)

def CM.bind {α β : Type} (m : CM α) (f : α → CM β) : CM β := fun s =>
  match m s with
  | (some x, s') => f x s'
  | (none, s') => (none, s')

instance : Monad CM where
  pure := CM.pure
  bind := CM.bind

def CM.modify (f : CState → CState) : CM Unit := fun s => (some (), f s)

def CM.get : CM CState := fun s => (some s, s)

def CM.exit {α : Type} : CM α := fun s => (none, s)

/-- __main__.py:19-21 SIGINT: `sys.exit(1)` -/
def sigint (sig : Moment → Bool) (m : Moment) : CM Unit := if sig m then CM.exit else CM.pure ()

/-- the file gets a new content -/
def CState.put (s : CState) (text : Str) : CState := { s with disk := text, seen := s.seen ++ [text] }

/-- the buffered text reaches the file, at its beginning, in any number of pieces. Linux does not interrupt writes to regular files. -/
def CState.flush (s : CState) : CState :=
  match s.pending with
  | none => s
  | some t =>
    { s with pending := none, disk := t ++ s.disk.drop t.length,
             seen := s.seen ++ (List.range (t.length + 1)).map fun k => t.take k ++ s.disk.drop k }

/-- `with … as f:` the file is closed, and so flushed, however the body ends -/
def withFile {α : Type} (body : CM α) : CM α := fun s => ((body s).1, (body s).2.flush)

/-- kernel.py:587-602 `__try_set_optimization_level`; simplification: text and bytes are not told apart, as in `Model/Build` -/
def patchC (sig : Moment → Bool) (lvl : Nat) : CM Bool := do
  sigint sig (.patch lvl .start)
  let patched ← withFile (do
    sigint sig (.patch lvl .opened)
    let s ← CM.get
    let data := readText s.disk
    sigint sig (.patch lvl .read)
    CM.modify fun s => { s with backup := some data }
    sigint sig (.patch lvl .saved)
    sigint sig (.patch lvl .sought)
    match findFlags true data with
    | none => CM.pure false
    | some (pre, post) => do
      CM.modify fun s => { s with pending := some (pre ++ natRepr lvl ++ post) }
      sigint sig (.patch lvl .wrote)
      CM.modify fun s => s.flush.put (pre ++ natRepr lvl ++ post)
      sigint sig (.patch lvl .truncated)
      CM.pure true)
  sigint sig (.patch lvl .closed)
  CM.pure patched

/-- kernel.py:604-611 `__restore_makefile`, at moments `at_` -/
def restoreC (sig : Moment → Bool) (at_ : RestorePoint → Moment) : CM Unit := do
  let s ← CM.get
  match s.backup with
  | some (c :: cs) => do
    sigint sig (at_ .start)
    CM.modify fun s => s.put []
    withFile (do
      sigint sig (at_ .opened)
      CM.modify fun s => { s with pending := some (c :: cs) }
      sigint sig (at_ .wrote))
    sigint sig (at_ .closed)
  | _ => CM.pure ()
  CM.modify fun s => { s with handler := false }

/-- kernel.py:677-710 `build`; `ok lvl` tells whether `make` succeeds at that level (2: the Makefile as it is). Commands do not change
the Makefile. -/
def buildC (sig : Moment → Bool) (ok : Nat → Bool) (tryDisableOpt : Bool) : CM Unit := do
  if tryDisableOpt then do
    let patched ← patchC sig 0
    if patched then do
      CM.modify fun s => { s with handler := true }
      sigint sig (.make 0)
      restoreC sig (.restore 0)
      if ok 0 then CM.pure ()
      else do
        let _ ← patchC sig 1
        sigint sig (.make 1)
        restoreC sig (.restore 1)
        if ok 1 then CM.pure ()
        else lastMake
    else lastMake
  else lastMake
where
  lastMake : CM Unit := do
    sigint sig .last
    if ok 2 then CM.pure () else CM.exit

/-- a process that builds, from the content of the Makefile on: `build`, then the exit handlers -/
def processC (sig : Moment → Bool) (ok : Nat → Bool) (tryDisableOpt : Bool) (makefile : Str) : CState :=
  let s := (buildC sig ok tryDisableOpt { disk := makefile, seen := [makefile] }).2
  if s.handler then (restoreC sig .handler s).2 else s

end Verif
