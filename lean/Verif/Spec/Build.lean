import Verif.Spec.Kconfig
import Verif.Model.Build
/-! # Specifications for configuring and building (C66-C69, C78, C80, C81) -/
set_option autoImplicit false

namespace Verif.Spec

/-! ## The Makefile -/

/-- `text` is `a ++ mid ++ "2" ++ post`, where `mid` begins a line and reads `KBUILD_CFLAGS += -O`, with any white space around
`+=`, and `post` begins with the end of that line. -/
def FlagAt (text a mid post : Str) : Prop :=
  text = a ++ mid ++ '2' :: post ∧ (a = [] ∨ a.getLast? = some '\n') ∧
  (∃ ws ws', mid = cs!"KBUILD_CFLAGS" ++ ws ++ cs!"+=" ++ ws' ++ cs!"-O" ∧
    (∀ c ∈ ws, isSpace c = true) ∧ (∀ c ∈ ws', isSpace c = true)) ∧ ∃ rest, post = '\n' :: rest

/-- the first such line -/
def FirstFlag (text a mid post : Str) : Prop :=
  FlagAt text a mid post ∧ ∀ a' mid' post', FlagAt text a' mid' post' → a.length ≤ a'.length

/-- there is no such line -/
def NoFlag (text : Str) : Prop := ∀ a mid post, ¬ FlagAt text a mid post

/-! ## Attempts -/

/-- Trying commands in order until one succeeds, starting after history `h`: the commands run, and whether one succeeded. -/
inductive Attempts (st : List Run → Run → Option Nat) : List Run → List Run → List Run → Bool → Prop
  | exhausted (h : List Run) : Attempts st h [] [] false
  | success (h : List Run) (r : Run) (rs : List Run) : st h r = some 0 → Attempts st h (r :: rs) [r] true
  | failure (h : List Run) (r : Run) (rs R : List Run) (ok : Bool) :
      st h r ≠ some 0 → Attempts st (h ++ [r]) rs R ok → Attempts st h (r :: rs) (r :: R) ok

/-- A call of `make` in `kdir` for one target: the architecture is named, the target is the last word, and
every other word is an option or an assignment. -/
def MakeCall (kdir : Path) (archName target : Str) (r : Run) : Prop :=
  r.cwd = some kdir ∧ (∃ opts, r.argv = cs!"make" :: opts ++ [target] ∧ cs!"ARCH=" ++ archName ∈ opts ∧
    ∀ o ∈ opts, cs!"-j" <+: o ∨ '=' ∈ o)

/-! ## Configuration -/

/-- `o` is in a table (of lists) at version `v` -/
def InListTable (tab : List (Ver × Ver × List Str)) (v : Ver) (o : Opt) : Prop :=
  ∃ s e l, (s, e, l) ∈ tab ∧ s ≤ v ∧ v < e ∧ Opt.text o ∈ l

/-- `o` is a key of a table at version `v` -/
def InDictTable (tab : List (VEntry Str (List Str))) (v : Ver) (o : Opt) : Prop :=
  ∃ deps, Covers tab v (Opt.text o) deps

/-- A call of `scripts/config` in `kdir` on file `cfg` with more arguments. -/
def ConfigCall (kdir cfg : Path) (args : List Str) (r : Run) : Prop :=
  r.cwd = some kdir ∧ r.argv = [cs!"./scripts/config", cs!"--file", cfg.str] ++ args

/-- Queries of default values, then a call that sets exactly the options satisfying `want`; nothing at all
is also fine if there is no such option. Options are read as `NAME=VALUE` at the first `=`. -/
def SetsGroup (kdir cfg : Path) (want : Opt → Prop) (R : List Run) : Prop :=
  (R = [] ∧ ∀ o, '=' ∉ o.1 → ¬ want o) ∨
  ∃ Q r args os, R = Q ++ [r] ∧ (∀ q ∈ Q, ∃ n, ConfigCall kdir cfg [cs!"-s", n] q) ∧ ConfigCall kdir cfg args r ∧
    decodeArgs args = some os ∧ ∀ o, o ∈ os ↔ '=' ∉ o.1 ∧ want o

/-- `make olddefconfig` from 3.7 on, `make oldconfig` before -/
def SyncCall (kdir : Path) (archName : Str) (v : Ver) (R : List Run) : Prop :=
  ∃ r, R = [r] ∧ MakeCall kdir archName (if [3, 7] ≤ v then cs!"olddefconfig" else cs!"oldconfig") r

/-- one call of `make` for each target -/
def MakeCalls (kdir : Path) (archName : Str) (targets : List Str) (R : List Run) : Prop :=
  List.Forall₂ (MakeCall kdir archName) targets R

/-- `make kernelversion` -/
def VersionCall (kdir : Path) (R : List Run) : Prop :=
  ∃ r, R = [r] ∧ r.cwd = some kdir ∧ r.argv = [cs!"make", cs!"kernelversion"]

/-- The runs go through the phases in order; the last phase that was begun may be incomplete. -/
inductive Phases : List (List Run → Prop) → List Run → Prop
  | stop (p : List Run → Prop) (ps : List (List Run → Prop)) (R more : List Run) : p (R ++ more) → Phases (p :: ps) R
  | next (p : List Run → Prop) (ps : List (List Run → Prop)) (R R' : List Run) : p R → Phases ps R' → Phases (p :: ps) (R ++ R')
  | done : Phases [] []

/-- The runs are complete phases, in order. -/
inductive AllPhases : List (List Run → Prop) → List Run → Prop
  | next (p : List Run → Prop) (ps : List (List Run → Prop)) (R R' : List Run) : p R → AllPhases ps R' → AllPhases (p :: ps) (R ++ R')
  | done : AllPhases [] []

/-- The documented order of configuring: base targets; the version is asked; debugging, compatibility, syscall and architecture
options, each followed by a synchronisation. -/
def configPhases (kdir cfg : Path) (archName : Str) (targets : List Str) (archTable : List (VEntry Str (List Str))) (v : Ver) :
    List (List Run → Prop) :=
  [MakeCalls kdir archName targets, VersionCall kdir,
   SetsGroup kdir cfg (InListTable kconfigDebuggingTable v), SyncCall kdir archName v,
   SetsGroup kdir cfg (InListTable kconfigCompatibilityTable v), SyncCall kdir archName v,
   SetsGroup kdir cfg (InDictTable kconfigMoreSyscallsTable v), SyncCall kdir archName v,
   SetsGroup kdir cfg (InDictTable archTable v), SyncCall kdir archName v]

/-- Whenever something runs after `make kernelversion`, `v` is the version it printed. -/
def VersionPrinted (out : List Run → Run → Str) (h : List Run) (v : Ver) (R : List Run) : Prop :=
  ∀ pre r post, R = pre ++ r :: post → r.argv = [cs!"make", cs!"kernelversion"] → post ≠ [] →
    versionFromStr (out (h ++ pre) r) = some v

end Verif.Spec
