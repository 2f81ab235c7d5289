import Verif.Lemmas.Popen
import Verif.Lemmas.Utils
/-! # C112: what is told about a command that fails -/
set_option autoImplicit false

namespace Verif
open Spec

theorem shell_not (c : CmdArg) (h : ∀ s, c ≠ .shell s) (pr : Char → Bool) (rest : Str) : readCommand (c.shown pr ++ rest) = some (c, rest) := by
  cases c with
  | shell s => exact absurd rfl (h s)
  | list ws => exact readCommand_list pr ws rest
  | tuple ws => exact readCommand_tuple pr ws rest

theorem blank_iff (err : Str) : strip err ≠ [] ↔ err.all isSpace = false := by
  rw [strip_ne_nil, Bool.eq_false_iff]
  simp [List.any_eq_true, List.all_eq_true]

/-- C112, a command that ends with a status other than 0: one message is shown and the program ends with status 1; from the
message the status, all words of the command and its whole standard error can be read back (a blank one is told to be empty). -/
theorem C112_failure (pr : Char → Bool) (cmd : CmdArg) (hc : ∀ s, cmd ≠ .shell s) (cwd : Option Path) (ex console : Bool)
    (st : Int) (hst : st ≠ 0) (out err : Str) :
    ∃ msg, ensureTold pr cmd cwd ex console (.ended st out err) = ([msg], .error (.exit 1)) ∧
      readFailure msg = some (st, cmd, errTold console err) := by
  refine ⟨cs!"Command returned " ++ intRepr st ++ cs!": " ++ cmd.shown pr ++ errTail console err, ?_, ?_⟩
  · simp [ensureTold, doPopen, hst]
  · unfold readFailure
    have e1 : startsWith (cs!"Command returned " ++ intRepr st ++ cs!": " ++ cmd.shown pr ++ errTail console err)
        cs!"Command returned " = true := by
      unfold startsWith
      rw [List.isPrefixOf_iff_prefix]
      exact ⟨intRepr st ++ cs!": " ++ cmd.shown pr ++ errTail console err, by simp only [List.append_assoc]⟩
    have e2 : (cs!"Command returned " ++ intRepr st ++ cs!": " ++ cmd.shown pr ++ errTail console err).drop 17 =
        intRepr st ++ ':' :: (' ' :: (cmd.shown pr ++ errTail console err)) := by
      simp only [List.append_assoc]
      rfl
    rw [e1, if_pos rfl, e2, readInt_repr]
    simp only [shell_not cmd hc pr]
    unfold errTail errTold
    cases console with
    | true => rfl
    | false =>
      by_cases hb : err.all isSpace = true
      · have : ¬ strip err ≠ [] := fun h => by rw [(blank_iff err).1 h] at hb; cases hb
        simp only [Bool.false_eq_true, if_false, if_neg this, hb, if_true]
        rfl
      · have : strip err ≠ [] := (blank_iff err).2 (by simpa using hb)
        simp only [Bool.false_eq_true, if_false, if_pos this, if_neg hb]
        rw [unindent_indent]

example : ensureTold (fun _ => true) (.list [.str cs!"readelf", .str cs!"-Ws", .path cs!"it's/vmlinux"]) none true false
      (.ended 1 [] cs!"readelf: Error\n\n  no such file\n") =
    ([cs!"Command returned 1: ['readelf', '-Ws', PosixPath(\"it's/vmlinux\")]\n\treadelf: Error\n\n\t  no such file\n"],
      .error (.exit 1)) := by decide

/-- C112: the command run by the shell is shown as the line it is. -/
theorem C112_shell (pr : Char → Bool) (cwd : Option Path) (ex console : Bool) (line : Str) (st : Int) (hst : st ≠ 0) (out err : Str) :
    ensureTold pr (.shell line) cwd ex console (.ended st out err) =
      ([cs!"Command returned " ++ intRepr st ++ cs!": " ++ line ++
        (match errTold console err with
         | .nothing => []
         | .empty => cs!" (no stderr output)"
         | .text e => '\n' :: indentTab e)], .error (.exit 1)) := by
  simp only [ensureTold, doPopen, ne_eq, hst, not_false_eq_true, if_true, List.nil_append, CmdArg.shown]
  congr 3
  unfold errTail errTold
  cases console with
  | true => rfl
  | false =>
    by_cases hb : err.all isSpace = true
    · have : ¬ strip err ≠ [] := fun h => by rw [(blank_iff err).1 h] at hb; cases hb
      simp only [Bool.false_eq_true, if_false, if_neg this, hb, if_true]
    · have : strip err ≠ [] := (blank_iff err).2 (by simpa using hb)
      simp only [Bool.false_eq_true, if_false, if_pos this, if_neg hb]

/-- C112: nothing is told about a command that succeeds, and its output is given back as it is. -/
theorem C112_success (pr : Char → Bool) (cmd : CmdArg) (cwd : Option Path) (ex console : Bool) (out err : Str) :
    ensureTold pr cmd cwd ex console (.ended 0 out err) = ([], .ok out) ∧
    ∀ st, runTold cmd cwd ex (.ended st out err) = ([], .ok st) := by
  simp [ensureTold, runTold, doPopen]

/-- C112, a command that cannot be started in a directory: the program ends with status 127 after one message, which says
whether the directory or the command is missing, and which one. (What is missing: commands run without a directory.) -/
theorem C112_not_started_partial (pr : Char → Bool) (words : List CmdWord) (w : CmdWord) (cmd : CmdArg)
    (hc : cmd = .list (w :: words) ∨ cmd = .tuple (w :: words)) (p : Path) (ex console : Bool) :
    ensureTold pr cmd (some p) ex console .notFound =
      ([if ex then cs!"Command not found: " ++ w.word else cs!"Directory does not exist: " ++ p.str], .error (.exit 127)) ∧
    ensureTold pr cmd (some p) ex console .notDir = ([cs!"Path is not a directory: " ++ p.str], .error (.exit 127)) ∧
    (runTold cmd (some p) ex .notFound).1 = (ensureTold pr cmd (some p) ex console .notFound).1 ∧
    (runTold cmd (some p) ex .notFound).2 = .ok 127 := by
  rcases hc with rfl | rfl <;> cases ex <;> simp [ensureTold, runTold, doPopen, CmdArg.first, cwdStr]

/-- C112 is false of the code: when a command run without a directory (readelf, addr2line, rg, the compiler) does not exist,
nothing is told and the program ends with an AttributeError. -/
theorem C112_not_started_refuted (pr : Char → Bool) (cmd : CmdArg) (ex console : Bool) :
    ensureTold pr cmd none ex console .notFound = ([], .error .attr) ∧ runTold cmd none ex .notFound = ([], .error .attr) := by
  simp [ensureTold, runTold, doPopen]

/-- C112: these functions are those used for the analysis and the build: they end in the same way. -/
theorem C112_same (pr : Char → Bool) (w : World) (argv : List Str) (cmd : CmdArg) (hr : RunsWords cmd argv) (hne : argv ≠ [])
    (hs : ∀ s, cmd ≠ .shell s)
    (cwd : Option Path) (input : Option Str) (ex console : Bool) (s : BState) (hint : w.interrupt ≠ some (.run s.hist.length))
    (err : Str) (o : Outcome)
    (ho : o = match w.status s.hist ⟨argv, cwd, input, false, s.makefile⟩ with
      | none => .notFound
      | some st => .ended st (w.output s.hist ⟨argv, cwd, input, false, s.makefile⟩) err) :
    (ensureCommand w argv cwd input s).1 = (ensureTold pr cmd cwd ex console o).2 ∧
    (runCommand w argv cwd input s).1.map (fun n : Nat => (n : Int)) = (runTold cmd cwd ex o).2 := by
  obtain ⟨x, hx⟩ : ∃ x, cmd.first = .ok x := by
    cases cmd with
    | shell s => exact absurd rfl (hs s)
    | list ws =>
      cases ws with
      | nil => exact absurd hr.symm hne
      | cons a ws => exact ⟨_, rfl⟩
    | tuple ws =>
      cases ws with
      | nil => exact absurd hr.symm hne
      | cons a ws => exact ⟨_, rfl⟩
  subst ho
  simp only [ensureCommand, runCommand, exec, BM.get, BM.modify, tick, bind, BM.bind, if_neg hint, BM.pure]
  cases hst : w.status s.hist ⟨argv, cwd, input, false, s.makefile⟩ with
  | none =>
    cases cwd with
    | none => simp [ensureTold, runTold, doPopen, notStarted, BM.raise, Except.map]
    | some p => cases ex <;> simp [ensureTold, runTold, doPopen, notStarted, BM.raise, BM.pure, Except.map, hx]
  | some st =>
    by_cases h0 : st = 0
    · subst h0; simp [ensureTold, runTold, doPopen, BM.pure, Except.map]
    · simp [ensureTold, runTold, doPopen, BM.raise, BM.pure, Except.map, h0]

/-! ## Pasting -/

/-- C112, pasting: the only command run by the shell can be pasted into one. -/
theorem C112_paste_partial (pr : Char → Bool) :
    RunsWords (.shell cs!"make kernelversion") [cs!"make", cs!"kernelversion"] ∧
    shellWords .none none ((CmdArg.shell cs!"make kernelversion").shown pr) = some [cs!"make", cs!"kernelversion"] := by
  constructor
  · unfold RunsWords; decide
  · simp only [CmdArg.shown]; decide

/-- C112 is false of the code: no other command can be pasted into a shell. The shell does not accept the text as a line of
plain words: it begins with a bracket. -/
theorem C112_paste_refuted (pr : Char → Bool) (cmd : CmdArg) (hc : ∀ s, cmd ≠ .shell s) :
    shellWords .none none (cmd.shown pr) = none := by
  have a : ∀ t, shellWords .none none ('[' :: t) = none := by intro t; rw [shellWords]; rfl
  have b : ∀ t, shellWords .none none ('(' :: t) = none := by intro t; rw [shellWords]; rfl
  cases cmd with
  | shell s => exact absurd rfl (hc s)
  | list ws => simp only [CmdArg.shown, List.cons_append]; exact a _
  | tuple ws =>
    match ws with
    | [] => exact b _
    | [w] => simp only [CmdArg.shown, List.cons_append]; exact b _
    | w :: v :: ws => simp only [CmdArg.shown, List.cons_append]; exact b _

end Verif
