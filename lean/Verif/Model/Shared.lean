import Verif.Model.Crash
/-! # Builds at the same time in one source tree, /repo/src/systrack/kernel.py:587-611 and 677-710

Any number of processes build in the same KDIR (with output directories of their own, say). Each is a sequence of steps, one for each
system call that reads or changes KDIR/Makefile; reading and writing happen in pieces of any size. A schedule says whose turn it is, and
what happens at that turn. A process that is killed has no more turns. Simplification: text and bytes are not told apart, as in
`Model/Build` and `Model/Crash`. -/
set_option autoImplicit false

namespace Verif

/-- what `build` does after `__restore_makefile` -/
inductive AfterRestore where
  /-- `return` -/
  | finish
  /-- the attempt with `-O1` -/
  | second
  /-- the normal build -/
  | normal
  /-- nothing: it was the exit handler -/
  | exit
  deriving DecidableEq, Repr

/-- where a process is -/
inductive Pc where
  /-- kernel.py:677 before `build` -/
  | start (opt : Bool)
  /-- kernel.py:590 before the file is opened for reading and writing -/
  | opening (lvl : Nat)
  /-- kernel.py:591 `f.read()`, with what was read so far -/
  | reading (lvl : Nat) (got : Str)
  /-- kernel.py:592-596 -/
  | searching (lvl : Nat) (data : Str)
  /-- kernel.py:599 `f.write`, with how much is on disk -/
  | writing (lvl : Nat) (text : Str) (off : Nat)
  /-- kernel.py:600 `f.truncate()` at this position -/
  | cutting (lvl : Nat) (len : Nat)
  /-- kernel.py:602 the file is closed -/
  | closed (lvl : Nat)
  /-- kernel.py:689, 698 `make` is about to read the Makefile -/
  | making (lvl : Nat)
  /-- kernel.py:604-606 before the file is opened, which empties it -/
  | restore (after : AfterRestore)
  /-- kernel.py:607 `f.write` -/
  | rewriting (after : AfterRestore) (text : Str) (off : Nat)
  /-- kernel.py:611 -/
  | unregister (after : AfterRestore)
  /-- the file is closed because of SIGINT, and its text is flushed -/
  | draining (text : Str) (off : Nat)
  /-- kernel.py:709 the normal build -/
  | normal
  /-- the end, exit handlers included -/
  | over
  deriving DecidableEq, Repr

structure Proc where
  pc : Pc
  /-- `self.__backup_makefile` -/
  backup : Option Str := none
  /-- whether `__restore_makefile` is registered with `atexit` -/
  handler : Bool := false
  /-- exit handlers are running -/
  exiting : Bool := false
  /-- levels of optimisation that `make` was started for (`none`: the normal build), with the contents of the Makefile that it found,
  the latest first -/
  built : List (Option Nat × Str) := []
  deriving DecidableEq, Repr

/-- what happens at one turn -/
structure Tick where
  /-- pieces are this long, plus one -/
  size : Nat := 0
  /-- `make` succeeds -/
  ok : Bool := true
  /-- SIGINT arrives -/
  sigint : Bool := false
  deriving DecidableEq, Repr

/-- `write` at an offset; a gap is filled with zeros -/
def writeAt (disk : Str) (off : Nat) (piece : Str) : Str :=
  (disk ++ List.replicate (off - disk.length) '\x00').take off ++ piece ++ disk.drop (off + piece.length)

/-- `ftruncate` -/
def resize (disk : Str) (len : Nat) : Str := disk.take len ++ List.replicate (len - disk.length) '\x00'

/-- __main__.py:19-21 SIGINT: `sys.exit(1)`, so exit handlers run; while they run, the one that is running ends -/
def Proc.quit (p : Proc) : Proc :=
  if p.handler && !p.exiting then { p with pc := .restore .exit, exiting := true } else { p with pc := .over }

/-- kernel.py:692-710 after `__restore_makefile` -/
def Proc.next (p : Proc) : AfterRestore → Proc
  | .finish => { p with pc := .over }
  | .second => { p with pc := .opening 1 }
  | .normal => { p with pc := .normal }
  | .exit => { p with pc := .over }

/-- one turn of a process: its new state and the new content of the Makefile -/
def Proc.step (p : Proc) (disk : Str) (t : Tick) : Proc × Str :=
  match p.pc with
  | .over => (p, disk)
  | .draining text off =>
    if off < text.length then
      let piece := (text.drop off).take (t.size + 1)
      ({ p with pc := .draining text (off + piece.length) }, writeAt disk off piece)
    else (p.quit, disk)
  | .start opt =>
    if t.sigint then (p.quit, disk)
    else ({ p with pc := if opt then .opening 0 else .normal }, disk)
  | .opening lvl => if t.sigint then (p.quit, disk) else ({ p with pc := .reading lvl [] }, disk)
  | .reading lvl got =>
    if t.sigint then (p.quit, disk)
    else if got.length < disk.length then
      ({ p with pc := .reading lvl (got ++ (disk.drop got.length).take (t.size + 1)) }, disk)
    else ({ p with pc := .searching lvl (readText got), backup := some (readText got) }, disk)
  | .searching lvl data =>
    if t.sigint then (p.quit, disk)
    else match findFlags true data with
      | none => ({ p with pc := if lvl = 0 then .normal else .making lvl }, disk)
      | some (pre, post) => ({ p with pc := .writing lvl (pre ++ natRepr lvl ++ post) 0 }, disk)
  | .writing lvl text off =>
    if t.sigint then ({ p with pc := .draining text off }, disk)
    else if off < text.length then
      let piece := (text.drop off).take (t.size + 1)
      ({ p with pc := .writing lvl text (off + piece.length) }, writeAt disk off piece)
    else ({ p with pc := .cutting lvl text.length }, disk)
  | .cutting lvl len => if t.sigint then (p.quit, disk) else ({ p with pc := .closed lvl }, resize disk len)
  | .closed lvl =>
    if t.sigint then (p.quit, disk) else ({ p with pc := .making lvl, handler := p.handler || lvl == 0 }, disk)
  | .making lvl =>
    if t.sigint then (p.quit, disk)
    else ({ p with pc := .restore (if t.ok then .finish else if lvl = 0 then .second else .normal), built := (some lvl, disk) :: p.built }, disk)
  | .restore after =>
    if t.sigint then (p.quit, disk)
    else match p.backup with
      | some (c :: cs) => ({ p with pc := .rewriting after (c :: cs) 0 }, [])
      | _ => ({ p with pc := .unregister after }, disk)
  | .rewriting after text off =>
    if t.sigint then ({ p with pc := .draining text off }, disk)
    else if off < text.length then
      let piece := (text.drop off).take (t.size + 1)
      ({ p with pc := .rewriting after text (off + piece.length) }, writeAt disk off piece)
    else ({ p with pc := .unregister after }, disk)
  | .unregister after => if t.sigint then (p.quit, disk) else (({ p with handler := false } : Proc).next after, disk)
  | .normal =>
    if t.sigint then (p.quit, disk) else ({ p.quit with built := (none, disk) :: p.built }, disk)

/-- the Makefile and all processes -/
structure Tree where
  disk : Str
  procs : Nat → Proc

/-- the turn of process `i` -/
def Tree.step (s : Tree) (i : Nat) (t : Tick) : Tree :=
  ⟨((s.procs i).step s.disk t).2, fun j => if j = i then ((s.procs i).step s.disk t).1 else s.procs j⟩

/-- a schedule -/
def Tree.run (s : Tree) : List (Nat × Tick) → Tree
  | [] => s
  | (i, t) :: rest => (s.step i t).run rest

/-- before anything was done; `opt i`: process `i` was given `--disable-opt` -/
def Tree.init (makefile : Str) (opt : Nat → Bool) : Tree := ⟨makefile, fun i => { pc := .start (opt i) }⟩

end Verif
