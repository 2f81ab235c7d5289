import Verif.Lemmas.Log
/-! # Standard error: C110 -/
set_option autoImplicit false

namespace Verif
open Spec

/-- C110, reading back: if each message is one line, the lines of standard error are those of the messages asked for by the
options, in order, and each tells its level and message. -/
theorem C110_lines (q v : Nat) (lost : Str) (msgs : List (LogLevel × Str)) (h : ∀ m ∈ msgs, '\n' ∉ m.2) :
    ∃ ls : List Str, stderrText q v false lost (msgs.map fun m => .log m.1 (some m.2)) = ls.flatMap (· ++ ['\n']) ∧
      (∀ l ∈ ls, '\n' ∉ l) ∧ ls.map readLine = (msgs.filter fun m => Wanted q v m.1).map some := by
  refine ⟨(msgs.filter fun m => Wanted q v m.1).map fun m => logLine false m.1 m.2, ?_, ?_, ?_⟩
  · unfold stderrText
    induction msgs with
    | nil => rfl
    | cons m ms ih =>
      rw [List.map_cons, List.flatMap_cons, ih fun m hm => h m (by simp [hm]), List.filter_cons]
      simp only [ErrEvent.text, shows_wanted]
      by_cases hw : Wanted q v m.1 <;> simp [hw]
  · intro l hl
    obtain ⟨m, hm, rfl⟩ := List.mem_map.1 hl
    have := h m (List.mem_filter.1 hm).1
    unfold logLine
    obtain ⟨l, t⟩ := m
    cases l <;> simpa [LogLevel.shortName, LogLevel.num, LogLevel.name] using this
  · rw [List.map_map]
    refine List.map_congr_left fun m _ => ?_
    exact readLine_logLine m.1 m.2

/-- C110, colors: on a terminal each log line is shown in the color of its level and everything else plain, whatever comes
before or after it; no color is left on at the end. -/
theorem C110_colors (q v : Nat) (lost : Str) (hlost : '\x1b' ∉ lost) (evs : List ErrEvent) (h : ∀ ev ∈ evs, NoEscape ev) (sh : List (Char × Option Str)) :
    Term.show ⟨none, none, sh⟩ (stderrText q v true lost evs) = ⟨none, none, sh ++ evs.flatMap (painted q v lost)⟩ := by
  induction evs generalizing sh with
  | nil => simp [stderrText, Term.show]
  | cons ev evs ih =>
    have key : Term.show ⟨none, none, sh⟩ (ev.text (setupLogging q v) true lost) = ⟨none, none, sh ++ painted q v lost ev⟩ := by
      have hp := h ev (by simp)
      cases ev with
      | say msg =>
        simp only [painted, stderrText, List.flatMap_cons, List.flatMap_nil, List.append_nil, ErrEvent.text]
        exact Term.show_plain _ (by split <;> simp_all [NoEscape]) _ _
      | sigint =>
        simp only [painted, stderrText, List.flatMap_cons, List.flatMap_nil, List.append_nil, ErrEvent.text]
        exact Term.show_plain _ (by decide) _ _
      | uncaught tb =>
        simp only [painted, stderrText, List.flatMap_cons, List.flatMap_nil, List.append_nil, ErrEvent.text]
        exact Term.show_plain _ hp _ _
      | log l t =>
        cases t with
        | none =>
          simp only [painted, stderrText, List.flatMap_cons, List.flatMap_nil, List.append_nil, ErrEvent.text]
          exact Term.show_plain _ (by split <;> simp_all) _ _
        | some msg =>
          simp only [painted, ErrEvent.text, shows_wanted, decide_eq_true_eq]
          split
          · rw [logLine_color, List.append_assoc, Term.show_append, Term.show_color, List.append_assoc, Term.show_append, Term.show_plain,
              Term.show_append, Term.show_reset, Term.show_plain _ (by decide)]
            · simp
            · have := shortName_plain l
              simp only [NoEscape] at hp
              simp [logLine, this, hp]
          · simp [Term.show]
    unfold stderrText at ih ⊢
    rw [List.flatMap_cons, Term.show_append, key, ih fun ev hev => h ev (by simp [hev])]
    simp

/-- C110, plain: when standard error is no terminal nothing is colored: no escape character is written. -/
theorem C110_no_terminal (q v : Nat) (lost : Str) (hlost : '\x1b' ∉ lost) (evs : List ErrEvent) (h : ∀ ev ∈ evs, NoEscape ev) :
    '\x1b' ∉ stderrText q v false lost evs := by
  unfold stderrText
  simp only [List.mem_flatMap, not_exists, not_and]
  intro ev hev
  have hp := h ev hev
  cases ev with
  | say msg => simp only [ErrEvent.text]; split <;> simp_all [NoEscape]
  | sigint => simp only [ErrEvent.text]; decide
  | uncaught tb => exact hp
  | log l t =>
    simp only [ErrEvent.text]
    split
    · cases t with
      | none => exact hlost
      | some msg =>
        have := shortName_plain l
        simp only [NoEscape] at hp
        simp [logLine, this, hp]
    · simp

/-- C110, silence: with four -q and no -v neither messages nor records are shown. (What is missing: interruption and
exceptions that are not caught.) -/
theorem C110_silence_partial (q : Nat) (hq : 4 ≤ q) (colors : Bool) (lost : Str) (evs : List ErrEvent)
    (h : ∀ ev ∈ evs, ev ≠ .sigint ∧ ∀ tb, ev ≠ .uncaught tb) : stderrText q 0 colors lost evs = [] := by
  unfold stderrText
  rw [List.flatMap_eq_nil_iff]
  intro ev hev
  obtain ⟨h1, h2⟩ := h ev hev
  cases ev with
  | say msg =>
    have : (setupLogging q 0).silent = true := by simp [setupLogging]; omega
    simp [ErrEvent.text, this]
  | sigint => exact absurd rfl h1
  | uncaught tb => exact absurd rfl (h2 tb)
  | log l t =>
    have : ¬ Wanted q 0 l := by unfold Wanted; cases l <;> simp only <;> omega
    simp [ErrEvent.text, shows_wanted, this]

/-- C110 is false of the code: an interruption is announced whatever the options say. -/
theorem C110_silence_refuted (q v : Nat) (colors : Bool) (lost : Str) (pre post : List ErrEvent) :
    ∃ a b, stderrText q v colors lost (pre ++ .sigint :: post) = a ++ cs!"Caught SIGINT, stopping\n" ++ b := by
  refine ⟨stderrText q v colors lost pre, stderrText q v colors lost post, ?_⟩
  simp only [stderrText, List.flatMap_append, List.flatMap_cons, ErrEvent.text, List.append_assoc]

/-- C110: one -q hides the messages of the program but not its warnings; -v brings them back. -/
theorem C110_program_messages (q v : Nat) (colors : Bool) (lost msg : Str) :
    stderrText q v colors lost [.say msg] = if q = 0 ∨ 0 < v then msg ++ ['\n'] else [] := by
  have : (setupLogging q v).silent = decide (¬ (q = 0 ∨ 0 < v)) := by
    rw [Bool.eq_iff_iff]
    simp only [setupLogging, decide_eq_true_eq]
    split <;> omega
  simp only [stderrText, List.flatMap_cons, List.flatMap_nil, List.append_nil, ErrEvent.text, this, decide_eq_true_eq]
  by_cases h : q = 0 ∨ 0 < v <;> simp [h]

/-! Examples -/

example : stderrText 0 1 false cs!"lost" [.say cs!"Compiler: gcc", .log .debug (some cs!"a"), .log .info (some cs!"b"), .log .critical (some cs!"c"),
    .log .warning none] = cs!"Compiler: gcc\n[I] b\n[FATAL] c\nlost" := by decide +kernel

example : stderrText 2 0 true [] [.say cs!"x", .log .warning (some cs!"a"), .log .error (some cs!"b"), .sigint] =
    cs!"\x1b[31m[E] b\x1b[0m\nCaught SIGINT, stopping\n" := by decide +kernel

example : (Term.show {} (stderrText 0 0 true [] [.log .error (some cs!"b"), .say cs!"x"])).shown =
    [('[', some cs!"31"), ('E', some cs!"31"), (']', some cs!"31"), (' ', some cs!"31"), ('b', some cs!"31"), ('\n', none), ('x', none), ('\n', none)] := by
  decide +kernel

end Verif
