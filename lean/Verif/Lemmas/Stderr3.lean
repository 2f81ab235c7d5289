import Verif.Lemmas.Stderr2
import Verif.Lemmas.Popen
/-! # Actions that tell why they fail -/
set_option autoImplicit false
set_option maxRecDepth 8000

namespace Verif
open Spec

variable {W : World} {T : Telling} {H : Bool}

theorem tells_append {hist : List Run} (evs : List ErrEvent) {more : List ErrEvent} (h : TellsWhy W T H hist more) :
    TellsWhy W T H hist (evs ++ more) := by
  obtain ⟨b, l, h1, h2⟩ := h
  exact ⟨evs ++ b, l, h1, by rw [h2, List.append_assoc]⟩

theorem tells_of {hist : List Run} {evs : List ErrEvent} (h : Closing W T H hist evs) : TellsWhy W T H hist evs := ⟨[], evs, h, rfl⟩

/-- whenever `sys.exit` is called the end tells why -/
def ClosesB (W : World) (T : Telling) (H : Bool) {α : Type} (m : RB α) : Prop :=
  ∀ s n, (m s).2.1 = .error (.exit n) → TellsWhy W T H (m s).2.2.hist (m s).1

/-- and whenever the value is bad -/
def Closes (W : World) (T : Telling) (H : Bool) {α : Type} (bad : α → Prop) (m : RM α) : Prop :=
  ∀ s, ((∃ n, (m s).2.1 = .error (.exit n)) ∨ ∃ x, (m s).2.1 = .ok x ∧ bad x) → TellsWhy W T H (m s).2.2.b.hist (m s).1

section
variable {α β : Type}

theorem cb_pure (x : α) : ClosesB W T H (RB.pure x) := fun s n h => by cases h

theorem cb_quiet {m : BM α} (h : ∀ s, NoExit (m s).1) : ClosesB W T H (RB.quiet m) := fun s n h' => absurd h' (h s n)

theorem cb_get : ClosesB W T H (RB.quiet BM.get) := cb_quiet fun _ => ne_ok _
theorem cb_modify (f : BState → BState) : ClosesB W T H (RB.quiet (BM.modify f)) := cb_quiet fun _ => ne_ok _
theorem cb_lift {r : Res α} (h : NoExit r) : ClosesB W T H (RB.quiet (BM.lift r)) := cb_quiet fun _ => h
theorem cb_raise {e : Exc} (h : ∀ n, e ≠ .exit n) : ClosesB W T H (RB.quiet (BM.raise e : BM α)) := cb_quiet fun _ => ne_error e h

theorem cb_tell (evs : List ErrEvent) : ClosesB W T H (RB.tell evs) := fun s n h => by cases h

theorem cb_bind {m : RB α} {f : α → RB β} (hm : ClosesB W T H m) (hf : ∀ x, ClosesB W T H (f x)) : ClosesB W T H (m >>= f) := by
  intro s n h
  change (RB.bind m f s).2.1 = _ at h
  show TellsWhy W T H (RB.bind m f s).2.2.hist (RB.bind m f s).1
  unfold RB.bind at h ⊢
  have hm := hm s
  rcases hr : (m s).2 with ⟨e | x, s'⟩
  · rw [hr] at h hm
    simp only [Except.error.injEq] at h
    exact hm n (congrArg Except.error h)
  · rw [hr] at h
    simp only at h ⊢
    exact tells_append _ (hf x s' n h)

theorem cl_pure {bad : α → Prop} {x : α} (h : ¬ bad x) : Closes W T H bad (RM.pure x) := by
  rintro s (⟨n, h'⟩ | ⟨y, h', hb⟩)
  · cases h'
  · cases h'; exact absurd hb h

theorem cl_quiet {m : MM α} (h : ∀ s, NoExit (m s).1) : Closes W T H (fun _ => False) (RM.quiet m) := by
  rintro s (⟨n, h'⟩ | ⟨y, h', hb⟩)
  · exact absurd h' (h s n)
  · exact hb.elim

theorem cl_get : Closes W T H (fun _ => False) (RM.quiet MM.get) := cl_quiet fun _ => ne_ok _
theorem cl_modify (f : MState → MState) : Closes W T H (fun _ => False) (RM.quiet (MM.modify f)) := cl_quiet fun _ => ne_ok _
theorem cl_lift {r : Res α} (h : NoExit r) : Closes W T H (fun _ => False) (RM.quiet (MM.lift r)) := cl_quiet fun _ => h

theorem cl_raise {bad : α → Prop} {e : Exc} (h : ∀ n, e ≠ .exit n) : Closes W T H bad (RM.quiet (MM.raise e : MM α)) := by
  rintro s (⟨n, h'⟩ | ⟨y, h', hb⟩)
  · exact absurd h' (ne_error e h n)
  · cases h'

theorem cl_tell (evs : List ErrEvent) : Closes W T H (fun _ => False) (RM.tell evs) := by
  rintro s (⟨n, h'⟩ | ⟨y, h', hb⟩)
  · cases h'
  · exact hb.elim

theorem cl_eprint (v : Verbosity) (msg : Str) : Closes W T H (fun _ => False) (eprintR v msg) := by
  rintro s (⟨n, h'⟩ | ⟨y, h', hb⟩)
  · have : (eprint v msg s).1 = .error (.exit n) := h'
    rw [eprint_eq] at this; cases this
  · exact hb.elim

theorem cl_eprints (v : Verbosity) (ls : List Str) : Closes W T H (fun _ => False) (eprintsR v ls) := by
  rintro s (⟨n, h'⟩ | ⟨y, h', hb⟩)
  · have h' : (RM.run (eprintsR v ls) s).1 = .error (.exit n) := h'
    rw [eprintsR_run, eprints_eq] at h'; cases h'
  · exact hb.elim

theorem cl_ofB {m : RB α} (h : ClosesB W T H m) : Closes W T H (fun _ => False) (RM.ofB m) := by
  rintro s (⟨n, h'⟩ | ⟨y, h', hb⟩)
  · exact h s.b n h'
  · exact hb.elim

theorem cl_bind {bad : β → Prop} {m : RM α} {f : α → RM β} (hm : Closes W T H (fun _ => False) m) (hf : ∀ x, Closes W T H bad (f x)) :
    Closes W T H bad (m >>= f) := by
  intro s h
  change (∃ n, (RM.bind m f s).2.1 = _) ∨ (∃ x, (RM.bind m f s).2.1 = _ ∧ _) at h
  show TellsWhy W T H (RM.bind m f s).2.2.b.hist (RM.bind m f s).1
  unfold RM.bind at h ⊢
  have hm := hm s
  rcases hr : (m s).2 with ⟨e | x, s'⟩
  · rw [hr] at h hm
    simp only [Except.error.injEq] at h
    rcases h with ⟨n, h⟩ | ⟨y, h, -⟩
    · exact hm (.inl ⟨n, congrArg Except.error h⟩)
    · cases h
  · rw [hr] at h
    simp only at h ⊢
    exact tells_append _ (hf x s' h)

theorem cl_ite {bad : α → Prop} (c : Prop) [Decidable c] {x y : RM α} (hx : c → Closes W T H bad x) (hy : ¬ c → Closes W T H bad y) :
    Closes W T H bad (if c then x else y) := by
  split
  · next h => exact hx h
  · next h => exact hy h

/-- lines, then the end -/
theorem cl_say1 {bad : α → Prop} (v : Verbosity) (a : Str) (x : α) (h : Apology [a]) :
    Closes W T H bad (eprintR v a >>= fun _ => RM.pure x) := by
  intro s _
  have : (eprintR v a >>= fun _ => RM.pure x) s = ([.say a] ++ [], .ok x, (eprint v a s).2) := by
    show RM.bind _ _ s = _
    unfold RM.bind eprintR
    rw [eprint_eq]
    rfl
  rw [this]
  exact tells_of (.lines _ h)

theorem cl_say2 {bad : α → Prop} (v : Verbosity) (a b : Str) (x : α) (h : Apology [a, b]) :
    Closes W T H bad (eprintR v a >>= fun _ => eprintR v b >>= fun _ => RM.pure x) := by
  intro s _
  have : (eprintR v a >>= fun _ => eprintR v b >>= fun _ => RM.pure x) s =
      ([.say a] ++ ([.say b] ++ []), .ok x, (eprint v b (eprint v a s).2).2) := by
    show RM.bind _ _ s = _
    unfold RM.bind eprintR
    rw [eprint_eq]
    show (_ ++ (RM.bind _ _ _).1, (RM.bind _ _ _).2) = _
    unfold RM.bind
    simp only
    rw [eprint_eq]
    rfl
  rw [this]
  exact tells_of (.lines _ h)
end

/-! ## Commands -/

section
variable {high : Bool}

theorem cb_tick (w : World) (t : Telling) (p : Point) : ClosesB w t high (tickR w p) := by
  intro s n h
  unfold tickR at h ⊢
  split at h
  · next hi => rw [if_pos hi]; exact tells_of (.interrupted p hi)
  · cases h

theorem cb_exec (w : World) (t : Telling) (argv : List Str) (cwd : Option Path) (input : Option Str) : ClosesB w t high (execR w t argv cwd input) := by
  unfold execR
  exact cb_bind cb_get fun s => cb_bind (cb_modify _) fun _ => cb_bind (cb_tick w t _) fun _ => cb_pure _

/-- a command that ends is the last of the history -/
theorem execR_ok {w : World} {t : Telling} {argv : List Str} {cwd : Option Path} {input : Option Str} {s : BState} {o : Outcome × Bool}
    (h : (execR w t argv cwd input s).2.1 = .ok o) :
    o = outcomeOf w t s.hist ⟨argv, cwd, input, false, s.makefile⟩ ∧
    (execR w t argv cwd input s).2.2 = { s with hist := s.hist ++ [⟨argv, cwd, input, false, s.makefile⟩] } := by
  by_cases hi : w.interrupt = some (.run s.hist.length)
  · have e : (execR w t argv cwd input s).2.1 = .error (.exit 1) := by
      show (RB.bind (tickR w (.run s.hist.length)) _ _).2.1 = _
      unfold tickR
      rw [if_pos hi]
      rfl
    rw [e] at h
    cases h
  · have e : execR w t argv cwd input s = ([], .ok (outcomeOf w t s.hist ⟨argv, cwd, input, false, s.makefile⟩),
        { s with hist := s.hist ++ [⟨argv, cwd, input, false, s.makefile⟩] }) := by
      show ([] ++ ([] ++ (RB.bind (tickR w (.run s.hist.length)) _ _).1), (RB.bind (tickR w (.run s.hist.length)) _ _).2) = _
      unfold tickR
      rw [if_neg hi]
      rfl
    rw [e] at h ⊢
    cases h
    exact ⟨rfl, rfl⟩

/-- what is told after a command -/
theorem cb_command {α : Type} (w : World) (t : Telling) (argv : List Str) (cwd : Option Path) (input : Option Str)
    (evs : Outcome × Bool → List ErrEvent) (res : Outcome × Bool → Res α)
    (h : ∀ pre mk n, res (outcomeOf w t pre ⟨argv, cwd, input, false, mk⟩) = .error (.exit n) →
      TellsWhy w t high (pre ++ [⟨argv, cwd, input, false, mk⟩]) (evs (outcomeOf w t pre ⟨argv, cwd, input, false, mk⟩))) :
    ClosesB w t high (execR w t argv cwd input >>= fun o => RB.tell (evs o) >>= fun _ => RB.quiet (BM.lift (res o))) := by
  intro s n h'
  change (RB.bind (execR w t argv cwd input) _ s).2.1 = _ at h'
  show TellsWhy w t high (RB.bind (execR w t argv cwd input) _ s).2.2.hist (RB.bind (execR w t argv cwd input) _ s).1
  unfold RB.bind at h' ⊢
  have hx := @execR_ok w t argv cwd input s
  have hc := cb_exec (high := high) w t argv cwd input s
  rcases hr : (execR w t argv cwd input s).2 with ⟨e | o, s'⟩
  · rw [hr] at h' hc
    simp only [Except.error.injEq] at h'
    exact hc n (congrArg Except.error h')
  · rw [hr] at h' hx
    obtain ⟨rfl, hh⟩ := hx rfl
    have hh := congrArg BState.hist hh
    simp only at hh h' ⊢
    refine tells_append _ ?_
    change res _ = _ at h'
    show TellsWhy w t high s'.hist (evs _ ++ [])
    rw [hh, List.append_nil]
    exact h _ _ n h'

theorem outcome_ended {w : World} {t : Telling} {pre : List Run} {r : Run} {st : Int} {out err : Str} {ex : Bool}
    (h : outcomeOf w t pre r = (.ended st out err, ex)) :
    ∃ k : Nat, st = k ∧ w.status pre r = some k ∧ err = t.stderr pre r := by
  unfold outcomeOf at h
  repeat' split at h
  all_goals first | (cases h; exact ⟨_, rfl, by assumption, rfl⟩) | cases h

theorem outcome_notFound {w : World} {t : Telling} {pre : List Run} {r : Run} {ex : Bool} {d : Path}
    (h : outcomeOf w t pre r = (.notFound, ex)) (hd : r.cwd = some d) :
    w.status pre r = none ∧ t.noStart pre r = if ex then .noCommand else .noDirectory := by
  unfold outcomeOf at h
  rw [hd] at h
  simp only at h
  repeat' split at h
  all_goals first | (cases h; refine ⟨by assumption, ?_⟩; simpa using by assumption) | cases h

theorem outcome_notDir {w : World} {t : Telling} {pre : List Run} {r : Run} {ex : Bool}
    (h : outcomeOf w t pre r = (.notDir, ex)) :
    w.status pre r = none ∧ t.noStart pre r = .notADirectory ∧ ∃ d, r.cwd = some d := by
  unfold outcomeOf at h
  repeat' split at h
  all_goals first | (cases h; exact ⟨by assumption, by assumption, _, by assumption⟩) | cases h

theorem outcome_denied {w : World} {t : Telling} {pre : List Run} {r : Run} {ex : Bool}
    (h : outcomeOf w t pre r = (.denied, ex)) : False := by
  unfold outcomeOf at h
  repeat' split at h
  all_goals cases h

theorem first_words {cmd : CmdArg} {c : Str} (h : cmd.first = .ok c) : ∃ rest, cmd.words = c :: rest := by
  unfold CmdArg.first at h
  unfold CmdArg.words
  repeat' split at h
  all_goals first | (cases h; simp_all) | cases h

theorem errTail_told (console : Bool) (err : Str) :
    errTail console err = (match errTold console err with
      | .nothing => []
      | .empty => cs!" (no stderr output)"
      | .text e => '\n' :: indentTab e) := by
  unfold errTail errTold
  cases console with
  | true => rfl
  | false =>
    cases hb : err.all isSpace with
    | true =>
      have : ¬ strip err ≠ [] := by
        rw [strip_ne_nil]
        simpa [List.any_eq_true, List.all_eq_true] using hb
      simp [this]
    | false =>
      have : strip err ≠ [] := by
        rw [strip_ne_nil]
        simpa [List.any_eq_true, List.all_eq_true] using hb
      simp [this]

theorem criticals_one {w : World} {t : Telling} {hist : List Run} {m : Str} (h : CommandFailed w t high hist m) :
    TellsWhy w t high hist (criticals [m]) := tells_of (.command m h)

/-- a message of level CRITICAL is the last -/
theorem cb_tell_lift {α : Type} {w : World} {t : Telling} (evs : List ErrEvent) (r : Res α)
    (h : ∀ n hist, r = .error (.exit n) → TellsWhy w t high hist evs) :
    ClosesB w t high (RB.tell evs >>= fun _ => RB.quiet (BM.lift r)) := by
  intro s n h'
  have : (RB.tell evs >>= fun _ => RB.quiet (BM.lift r)) s = (evs ++ [], r, s) := rfl
  rw [this] at h' ⊢
  rw [List.append_nil]
  exact h n _ h'

theorem cb_run (w : World) (t : Telling) (cmd : CmdArg) (cwd : Option Path) (input : Option Str) : ClosesB w t high (runCommandR w t cmd cwd input) := by
  unfold runCommandR
  refine cb_bind (cb_exec w t _ _ _) fun o => cb_tell_lift _ _ fun n _ h => ?_
  exfalso
  obtain ⟨o, ex⟩ := o
  revert h
  unfold runTold doPopen
  have hf : ∀ e, cmd.first = .error e → e = .index := by
    intro e he
    unfold CmdArg.first at he
    repeat' split at he
    all_goals first | cases he; rfl | cases he
  rcases o with _ | _ | _ | ⟨st, out, err⟩
  · rcases cwd with _ | p
    · simp [Except.map]
    · simp only
      cases ex
      · simp [Except.map]
      · cases hc : cmd.first with
        | error e => rw [hf e hc]; simp [Except.map]
        | ok c => simp [Except.map]
  · simp [Except.map]
  · simp [Except.map]
  · simp [Except.map]

theorem cb_ensure (w : World) (t : Telling) (cmd : CmdArg) (cwd : Option Path) (input : Option Str) {console : Bool}
    (hcon : console = onConsole high cmd) : ClosesB w t high (ensureCommandR w t cmd cwd input console) := by
  subst hcon
  unfold ensureCommandR
  refine cb_command w t _ _ _ _ _ fun pre mk n h => ?_
  rcases ho : outcomeOf w t pre ⟨cmd.words, cwd, input, false, mk⟩ with ⟨o, ex⟩
  rw [ho] at h
  revert h
  unfold ensureTold doPopen
  have hf : ∀ e, cmd.first = .error e → e = .index := by
    intro e he
    unfold CmdArg.first at he
    repeat' split at he
    all_goals first | cases he; rfl | cases he
  rcases o with _ | _ | _ | ⟨st, out, err⟩
  · rcases cwd with _ | p
    · simp
    · have hn := outcome_notFound ho rfl
      simp only
      cases ex
      · intro _; exact criticals_one (.notStarted pre _ _ rfl (.noDirectory p rfl hn.1 (by simpa using hn.2)))
      · cases hc : cmd.first with
        | error e => rw [hf e hc]; simp
        | ok c =>
          intro _
          obtain ⟨rest, hr⟩ := first_words hc
          exact criticals_one (.notStarted pre _ _ rfl (.noCommand c rest hr hn.1 (by simpa using hn.2)))
  · intro _
    obtain ⟨h1, h2, d, h3⟩ := outcome_notDir ho
    simp only at h3
    subst h3
    exact criticals_one (.notStarted pre _ _ rfl (.notADirectory d rfl h1 h2))
  · simp
  · obtain ⟨k, rfl, h1, rfl⟩ := outcome_ended ho
    simp only
    split
    · next hk =>
      intro _
      rw [errTail_told]
      exact criticals_one (.status pre _ cmd k rfl rfl h1 (by simpa using hk))
    · intro h; cases h

end

/-! ## Building -/

section
variable (w : World) (t : Telling) (high : Bool) (b : Builder)

theorem cb_make (target : Str) (input : Option Str) : ClosesB w t high (makeR w t high b target input) :=
  cb_bind (cb_ensure w t _ _ _ (by simp [onConsole, makeCmd, makeArgv])) fun _ => cb_pure _

theorem cb_tryMake (target : Str) : ClosesB w t high (tryMakeR w t b target) := cb_run w t _ _ _

theorem cb_askVersion (kdir : Path) : ClosesB w t high (askVersionR w t kdir) := by
  unfold askVersionR
  refine cb_bind (cb_ensure w t _ _ _ rfl) fun out => ?_
  split
  · exact cb_raise fun n h => by cases h
  · exact cb_bind (cb_modify _) fun _ => cb_pure _

theorem cb_getVersion : ClosesB w t high (getVersionR w t b) := by
  unfold getVersionR
  refine cb_bind cb_get fun s => ?_
  split
  · exact cb_pure _
  · exact cb_askVersion w t high _

theorem cb_sync : ClosesB w t high (syncConfigR w t high b) := by
  unfold syncConfigR
  refine cb_bind (cb_getVersion w t high b) fun v => ?_
  split <;> exact cb_make w t high b _ _

theorem cb_clean : ClosesB w t high (cleanR w t high b) := cb_bind (cb_modify _) fun _ => cb_make w t high b _ _

theorem cb_performK (rs : List KRec) : ClosesB w t high (performKR w t b rs) := by
  induction rs with
  | nil => exact cb_pure _
  | cons r rs ih =>
    cases r with
    | script args => exact cb_bind (cb_ensure w t _ _ _ (by simp [onConsole, configCmd])) fun _ => ih
    | log c => exact cb_bind (cb_tell _) fun _ => ih

theorem cb_performAll (p : List KRec × Res Unit) (h : NoExit p.2) : ClosesB w t high (performAllR w t b p) :=
  cb_bind (cb_performK w t high b _) fun _ => cb_lift h

theorem cb_check (os : Dict Str (List Str)) : ClosesB w t high (applyOptionsCheckR w t b os) := by
  unfold applyOptionsCheckR
  split
  · exact cb_pure _
  · refine cb_bind cb_get fun s => ?_
    split
    · exact cb_raise fun n h => by cases h
    · next p hp =>
      refine cb_performAll w t high b p ?_
      unfold checkRecs at hp
      cases hl : w.readLines s.hist (b.configFile.absolute w.cwd) with
      | none => rw [hl] at hp; cases hp
      | some ls => rw [hl] at hp; cases hp; exact ne_checkConfigL _ _ _

theorem cb_apply (os : List Str) : ClosesB w t high (applyOptionsR w t b os) := cb_performAll w t high b _ (ne_editConfigL os)

theorem cb_makeAll (ts : List Str) : ClosesB w t high (makeAllR w t high b ts) := by
  induction ts with
  | nil => exact cb_pure _
  | cons x xs ih => exact cb_bind (cb_make w t high b _ _) fun _ => ih

theorem cb_configure : ClosesB w t high (configureR w t high b) := by
  unfold configureR
  exact cb_bind (cb_modify _) fun _ => cb_bind (cb_makeAll w t high b _) fun _ => cb_bind (cb_getVersion w t high b) fun _ =>
    cb_bind (cb_apply w t high b _) fun _ => cb_bind (cb_sync w t high b) fun _ => cb_bind (cb_getVersion w t high b) fun _ =>
    cb_bind (cb_apply w t high b _) fun _ => cb_bind (cb_sync w t high b) fun _ => cb_bind (cb_getVersion w t high b) fun _ =>
    cb_bind (cb_check w t high b _) fun _ => cb_bind (cb_sync w t high b) fun _ => cb_bind (cb_getVersion w t high b) fun _ =>
    cb_bind (cb_check w t high b _) fun _ => cb_sync w t high b

theorem cb_trySet (lvl : Nat) : ClosesB w t high (trySetOptLevelR w lvl) := by
  unfold trySetOptLevelR
  refine cb_bind cb_get fun s => cb_bind (cb_modify _) fun _ => ?_
  split
  · exact cb_pure _
  · exact cb_bind (cb_modify _) fun _ => cb_bind (cb_tick w t _) fun _ => cb_pure _

theorem cb_restore (lvl : Nat) : ClosesB w t high (restoreMakefileR w lvl) := by
  unfold restoreMakefileR
  refine cb_bind cb_get fun s => ?_
  dsimp only
  split
  · exact cb_bind (cb_modify _) fun _ => cb_bind (cb_tick w t _) fun _ => cb_bind (cb_modify _) fun _ => cb_modify _
  · exact cb_bind (cb_tell _) fun _ => cb_modify _

theorem cb_build (o : Bool) : ClosesB w t high (buildR w t high b o) := by
  unfold buildR
  refine cb_bind (cb_modify _) fun _ => ?_
  split
  · refine cb_bind (cb_trySet w t high 0) fun patched => ?_
    split
    · refine cb_bind (cb_modify _) fun _ => cb_bind (cb_tryMake w t high b _) fun res => cb_bind (cb_restore w t high 0) fun _ => ?_
      split
      · exact cb_pure _
      · refine cb_bind (cb_tell _) fun _ => cb_bind (cb_trySet w t high 1) fun _ => cb_bind (cb_tryMake w t high b _) fun res =>
          cb_bind (cb_restore w t high 1) fun _ => ?_
        split
        · exact cb_pure _
        · exact cb_bind (cb_tell _) fun _ => cb_make w t high b _ _
    · exact cb_bind (cb_tell _) fun _ => cb_make w t high b _ _
  · exact cb_make w t high b _ _

end

/-! ## The program -/

section
variable (w : MWorld) (t : Telling) (v : Verbosity)

theorem cl_gcc (cmd : Str) : Closes w.toWorld t v.high (fun _ => False) (gccVersionR w t cmd) := by
  unfold gccVersionR
  refine cl_bind (cl_ofB (cb_ensure _ t _ _ _ rfl)) fun out => ?_
  split
  · exact cl_raise fun n h => by cases h
  · exact cl_pure id

theorem cl_git (kdir : Option Path) (ref : Str) : Closes w.toWorld t v.high (fun _ => False) (gitCheckoutR w t kdir ref) :=
  cl_bind (cl_ofB (cb_ensure _ t _ _ _ rfl)) fun _ => cl_pure id

theorem cl_newBuilder (n : Option Str) (kdir outdir : Option Path) (cross : Str) :
    Closes w.toWorld t v.high (fun _ => False) (newBuilderR w t n kdir outdir cross) := by
  unfold newBuilderR
  split
  · exact cl_raise fun n h => by cases h
  · exact cl_raise fun n h => by cases h
  · exact cl_bind (cl_ofB (cb_askVersion _ t _ _)) fun _ => cl_bind cl_get fun _ => cl_bind (cl_lift (ne_archFromNameSt _ _ _)) fun _ =>
      cl_bind (cl_modify _) fun _ => cl_pure id

/-- the part of loadElfR after the header -/
def loadRest (vmlinux : Path) (data : Bytes) (h : ElfHeader) : RM Elf := do
  let symOut ← RM.ofB (ensureCommandR w.toWorld t (.list [.str cs!"readelf", .str cs!"-Ws", .path vmlinux.str]) none none false)
  if (extractSymbols h.machine (splitLines symOut)).1.isEmpty then RM.quiet (MM.raise (.named "KernelWithoutSymbolsError"))
  else do
    let secOut ← RM.ofB (ensureCommandR w.toWorld t (.list [.str cs!"readelf", .str cs!"-WS", .path vmlinux.str]) none none false)
    RM.quiet (MM.lift (Elf.load data secOut (splitLines symOut)))

theorem identDATA_event (n : Nat) : (⟨.critical, cs!"Invalid ELF e_ident[EI_DATA] = %d", [.int n]⟩ : LogCall).event =
    .log .critical (some (cs!"Invalid ELF e_ident[EI_DATA] = " ++ natRepr n)) := by
  simp [LogCall.event, LogCall.text, pyFormat, Level.toLog]

theorem identCLASS_event (n : Nat) : (⟨.critical, cs!"Invalid ELF e_ident[EI_CLASS] = %d", [.int n]⟩ : LogCall).event =
    .log .critical (some (cs!"Invalid ELF e_ident[EI_CLASS] = " ++ natRepr n)) := by
  simp [LogCall.event, LogCall.text, pyFormat, Level.toLog]

theorem cl_load (vmlinux : Path) : Closes w.toWorld t v.high (fun _ => False) (loadElfR w t vmlinux) := by
  unfold loadElfR
  refine cl_bind cl_get fun s => ?_
  split
  · exact cl_raise fun n h => by cases h
  · next data _ =>
    have key : ∀ n, parseElfHeader data = .error (.exit n) → ∀ hist, TellsWhy w.toWorld t v.high hist (identEvents data) := by
      intro n h hist
      unfold parseElfHeader at h
      unfold identEvents headerCalls
      split at h
      · next hl =>
        rw [if_pos hl]
        refine tells_append _ ?_
        split at h
        · next c d hc hd =>
          simp only [hc, hd]
          by_cases h1 : c = 1 ∨ c = 2
          · rw [if_pos h1]
            by_cases h2 : d = 1 ∨ d = 2
            · exfalso
              have : NoExit (do
                let bits32 ← (if c = 1 then .ok true else if c = 2 then .ok false else .error (.exit 1) : Res Bool)
                let big ← (if d = 1 then .ok false else if d = 2 then .ok true else .error (.exit 1) : Res Bool)
                let machine ← unpackUint big 2 (readAt data 0x12 2)
                let flags ← unpackUint big 4 (readAt data 0x24 4)
                .ok ⟨bits32, big, machine, flags⟩ : Res ElfHeader) := by
                refine ne_bind _ _ ?_ fun _ => ne_bind _ _ ?_ fun _ => by noexit
                · rcases h1 with rfl | rfl
                  · exact ne_ok _
                  · exact ne_ok _
                · rcases h2 with rfl | rfl
                  · exact ne_ok _
                  · exact ne_ok _
              exact this n h
            · rw [if_neg h2]; rw [List.map_singleton, identDATA_event]; exact tells_of (.rejected _ (.data _))
          · rw [if_neg h1]; rw [List.map_singleton, identCLASS_event]; exact tells_of (.rejected _ (.cls _))
        · cases h
      · cases h
    have hne : ∀ h, parseElfHeader data = .ok h → ∀ a b, NoExit (Elf.load data a b) := by
      intro h hh a b
      unfold Elf.load
      rw [hh]
      exact ne_ok _
    rcases hp : parseElfHeader data with e | hd
    · intro s hx
      have hs : (RM.tell (identEvents data) >>= fun _ => (RM.quiet (MM.lift (.error e : Res ElfHeader)) >>= fun h => loadRest w t vmlinux data h)) s =
          (identEvents data ++ [], .error e, s) := rfl
      have hx : ((∃ n, (.error e : Res Elf) = .error (.exit n)) ∨ ∃ x, (.error e : Res Elf) = .ok x ∧ False) := hx
      show TellsWhy w.toWorld t v.high s.b.hist (identEvents data ++ [])
      rw [List.append_nil]
      rcases hx with ⟨n, h⟩ | ⟨x, h, -⟩
      · cases h; exact key n hp _
      · cases h
    · refine cl_bind (cl_tell _) fun _ => cl_bind (cl_lift (ne_ok _)) fun h => cl_bind (cl_ofB (cb_ensure _ t _ _ _ (by simp [onConsole]))) fun so => ?_
      split
      · exact cl_raise fun n h => by cases h
      · exact cl_bind (cl_ofB (cb_ensure _ t _ _ _ (by simp [onConsole]))) fun _ => cl_lift (hne _ hp _ _)

theorem cl_newAnalysis (n : Option Str) (vmlinux : Path) (kdir : Option Path) : Closes w.toWorld t v.high (fun _ => False) (newAnalysisR w t n vmlinux kdir) := by
  unfold newAnalysisR
  exact cl_bind (cl_load w t v vmlinux) fun _ => cl_bind (cl_lift (ne_kernelInit _ _ _ _)) fun _ =>
    cl_bind (cl_lift (ne_kernelVersion _ _ _)) fun _ => cl_pure id

theorem init_apology (prog : Str) (n : Option Str) (d : Option (Kind × Bool × List Str)) (e : Exc) (ls : List Str)
    (h : initMessages prog n d e = some ls) : Apology ls := by
  unfold initMessages at h
  split at h
  · cases h; exact .noVersion
  split at h
  · cases h
    cases n with
    | none =>
      cases d with
      | none => exact .unknownArch _
      | some d => exact .wrongArch cs!"None" _
    | some n => exact .wrongArch n _
  split at h
  · cases h; exact .noSymbols
  split at h
  · split at h
    · cases h; exact .manyAbis _ _
    · cases h
  · cases h

theorem eprintsR_events (ls : List Str) (s : MState) : (eprintsR v ls s).1 = ls.map .say := by
  induction ls generalizing s with
  | nil => rfl
  | cons l ls ih =>
    show (RM.bind (eprintR v l) (fun _ => eprintsR v ls) s).1 = _
    unfold RM.bind eprintR
    rw [eprint_eq]
    show [.say l] ++ (eprintsR v ls _).1 = _
    rw [ih]
    rfl

theorem cl_catch {α : Type} (n : Option Str) (d : Option (Kind × Bool × List Str)) (m : RM α) (h : Closes w.toWorld t v.high (fun _ => False) m) :
    Closes w.toWorld t v.high (fun _ => False) (catchInitR w v n d m) := by
  intro s hx
  unfold catchInitR at hx ⊢
  have h := h s
  rcases hr : (m s).2 with ⟨e | x, s'⟩
  · rw [hr] at hx h
    simp only at hx ⊢
    rcases hi : initMessages w.prog n d e with _ | ls
    · rw [hi] at hx; exact h hx
    · simp only
      refine tells_append _ ?_
      refine ⟨[], ls.map .say, .lines _ (init_apology _ _ _ _ _ hi), ?_⟩
      show (RM.bind (eprintsR v ls) _ s').1 = _
      unfold RM.bind
      have h2 : (eprintsR v ls s').2.1 = .ok () := by
        have : (RM.run (eprintsR v ls) s').1 = .ok () := by rw [eprintsR_run, eprints_eq]
        exact this
      rcases hq : (eprintsR v ls s').2 with ⟨e' | u, s''⟩
      · rw [hq] at h2; cases h2
      · simp only
        rw [eprintsR_events]
        exact List.append_nil _
  · rw [hr] at hx
    rcases hx with ⟨n, hx⟩ | ⟨x, -, hx⟩
    · cases hx
    · exact hx.elim

theorem cl_took : Closes w.toWorld t v.high (fun _ => False) (tookR t) := by
  rintro s (⟨n, h⟩ | ⟨x, -, h⟩)
  · cases h
  · exact h.elim

theorem cl_mainBuild (args : Args) (n : Option Str) : Closes w.toWorld t v.high (fun r => r ≠ 0) (mainBuildR w t v args n) := by
  unfold mainBuildR
  refine cl_bind cl_get fun s => ?_
  split
  · exact cl_say1 v _ _ (.outNotDir _)
  · exact cl_say1 v _ _ (.outFails _ _)
  · refine cl_bind (cl_modify _) fun _ => ?_
    dsimp only
    refine cl_ite _ (fun _ => cl_say2 v _ _ _ (.noCompiler _)) fun _ => ?_
    have hrest : Closes w.toWorld t v.high (fun r : Nat => r ≠ 0) (do
        let b ← catchInitR w v n none (newBuilderR w t n (pathOf args.kdir) (pathOf args.out) (args.cross.getD []))
        if args.build || args.config then do
          eprintR v cs!"Cleaning kernel sources"
          RM.ofB (cleanR w.toWorld t v.high b)
          let ver ← RM.ofB (getVersionR w.toWorld t b)
          eprintR v (cs!"Detected kernel version: " ++ versionStr ver cs!"make")
          eprintR v cs!"Configuring kernel"
          RM.ofB (configureR w.toWorld t v.high b)
          if args.build then do
            eprintR v cs!"Building kernel (might take a while)"
            RM.ofB (buildR w.toWorld t v.high b args.disableOpt)
            tookR t
          else eprintR v cs!"Done"
        else do
          eprintR v cs!"Cleaning kernel sources"
          RM.ofB (cleanR w.toWorld t v.high b)
          eprintR v cs!"Done"
        RM.pure 0) := by
      refine cl_bind (cl_catch w t v _ _ _ (cl_newBuilder w t v _ _ _ _)) fun b => ?_
      have h0 : Closes w.toWorld t v.high (fun r : Nat => r ≠ 0) (RM.pure 0) := cl_pure (by simp)
      dsimp only
      refine cl_ite _ (fun _ => ?_) fun _ => ?_
      · refine cl_bind (cl_eprint v _) fun _ => cl_bind (cl_ofB (cb_clean _ t _ b)) fun _ => cl_bind (cl_ofB (cb_getVersion _ t _ b)) fun _ =>
          cl_bind (cl_eprint v _) fun _ => cl_bind (cl_eprint v _) fun _ => cl_bind (cl_ofB (cb_configure _ t _ b)) fun _ =>
          cl_ite _ (fun _ => ?_) fun _ => ?_
        · exact cl_bind (cl_eprint v _) fun _ => cl_bind (cl_ofB (cb_build _ t _ b _)) fun _ => cl_bind (cl_took w t v) fun _ => h0
        · exact cl_bind (cl_eprint v _) fun _ => h0
      · exact cl_bind (cl_eprint v _) fun _ => cl_bind (cl_ofB (cb_clean _ t _ b)) fun _ => cl_bind (cl_eprint v _) fun _ => h0
    refine cl_ite _ (fun _ => ?_) fun _ => ?_
    · exact cl_bind (cl_gcc w t v _) fun _ => cl_bind (cl_eprint v _) fun _ => hrest
    · exact cl_bind (cl_pure id) fun _ => hrest

theorem cl_auto (args : Args) (k : Analysis) : Closes w.toWorld t v.high (fun _ => False) (autoCheckoutR w t v args k) := by
  unfold autoCheckoutR
  refine cl_ite _ (fun _ => ?_) fun _ => cl_pure id
  exact cl_bind (cl_lift (ne_versionTag _)) fun _ => cl_bind (cl_eprint v _) fun _ => cl_git w t _ _ _

theorem cl_output (k : KernelInfo) (f : Format) : Closes w.toWorld t v.high (fun _ => False) (outputR w k f) := by
  by_cases h : f = .html ∧ w.jinja = false
  · intro s _
    have : (outputR w k f s).1 = noJinjaLines.map .say ++ [] := by
      unfold outputR
      rw [if_pos h]
      rfl
    rw [this]
    exact tells_of (.lines _ .noHtml)
  · exact cl_bind (cl_tell _) fun _ => cl_lift (ne_output _ _ _ _ _ h)

/-! ## With an exception -/

/-- the end tells why, or the end is one of the exceptions -/
def ClosesX (W : World) (T : Telling) (H : Bool) {α : Type} (bad : α → Prop) (exc : MState → Prop) (m : RM α) : Prop :=
  ∀ s, ((∃ n, (m s).2.1 = .error (.exit n)) ∨ ∃ x, (m s).2.1 = .ok x ∧ bad x) →
    TellsWhy W T H (m s).2.2.b.hist (m s).1 ∨ exc (m s).2.2

theorem cx_of {α : Type} {bad : α → Prop} {exc : MState → Prop} {m : RM α} (h : Closes W T H bad m) : ClosesX W T H bad exc m :=
  fun s hs => .inl (h s hs)

theorem cx_bind {α β : Type} {bad : β → Prop} {exc : MState → Prop} {m : RM α} {f : α → RM β} (hm : Closes W T H (fun _ => False) m)
    (hf : ∀ x s, (m s).2.1 = .ok x → ClosesX W T H bad exc (f x)) : ClosesX W T H bad exc (m >>= f) := by
  intro s h
  change (∃ n, (RM.bind m f s).2.1 = _) ∨ (∃ x, (RM.bind m f s).2.1 = _ ∧ _) at h
  show TellsWhy W T H (RM.bind m f s).2.2.b.hist (RM.bind m f s).1 ∨ exc (RM.bind m f s).2.2
  unfold RM.bind at h ⊢
  have hm := hm s
  rcases hr : (m s).2 with ⟨e | x, s'⟩
  · rw [hr] at h hm
    simp only [Except.error.injEq] at h
    rcases h with ⟨n, h⟩ | ⟨y, h, -⟩
    · exact .inl (hm (.inl ⟨n, congrArg Except.error h⟩))
    · cases h
  · rw [hr] at h
    simp only at h ⊢
    exact (hf x s (by rw [hr]) s' h).imp (tells_append _) id

theorem cx_ite {α : Type} {bad : α → Prop} {exc : MState → Prop} (c : Prop) [Decidable c] {x y : RM α} (hx : c → ClosesX W T H bad exc x)
    (hy : ¬ c → ClosesX W T H bad exc y) : ClosesX W T H bad exc (if c then x else y) := by
  split
  · next h => exact hx h
  · next h => exact hy h

theorem wrongSource_event : wrongSourceCall.event =
    .log .critical (some cs!"Do you have the correct source code version for this kernel?") := by decide +kernel

theorem noVaddr_event : noVaddrCall.event = .log .critical (some cs!"Unable to extract any syscall vaddr, giving up!") := by
  decide +kernel
theorem noNi_event : noNiCall.event = .log .critical (some cs!"No ni_syscall found!") := by decide +kernel
theorem bits_event (b : Bool) : (bitsCall b).event = .log .critical (some (if b then cs!"Selected arch is 32-bit, but kernel is 64-bit"
    else cs!"Selected arch is 64-bit, but kernel is 32-bit")) := by cases b <;> decide +kernel

/-- SystemExit during the extraction is explained -/
theorem cl_extract (k : Analysis) (vmlinux : Path) (kdir rdir : Option Path) :
    Closes w.toWorld t v.high (fun _ => False) (extractR w t k vmlinux kdir rdir) := by
  rintro s (⟨n, h⟩ | ⟨x, -, h⟩)
  · unfold extractR at h ⊢
    simp only at h ⊢
    rw [h]
    simp only
    split
    · next hl =>
      obtain ⟨pre, hp⟩ := List.getLast?_eq_some_iff.1 hl
      rw [hp, List.map_append, List.append_nil]
      refine tells_append _ (tells_of ?_)
      show Closing w.toWorld t v.high s.b.hist [wrongSourceCall.event]
      rw [wrongSource_event]
      exact .rejected _ .wrongSource
    · exact tells_append _ (tells_of .helper)
  · exact h.elim

theorem lm_bind_at {α β : Type} (m : LM α) (f : α → LM β) (x : α) (h : m.2 = .ok x) :
    (m >>= f) = (m.1 ++ (f x).1, (f x).2) := by
  show LM.bind m f = _
  unfold LM.bind
  obtain ⟨l, r⟩ := m
  cases h
  rfl

/-- no syscall is left: a message says why, or the entries were all dropped -/
theorem whole_empty (text : Insn → Str) (sh : Symbol → Str) (sr : Surroundings) (a0 : Arch) (e : Elf) (ver : Ver)
    (h : (wholeL text sh sr a0 e ver).2 = .ok []) :
    (∀ hist, TellsWhy W T H hist ((wholeL text sh sr a0 e ver).1.map LogCall.event)) ∨
    ∃ entries, a0.bits32 = e.bits32 ∧ tableEntries (a0.adjustAbi e) e (sr.kenv (a0.adjustAbi e)) = .ok entries ∧ entries ≠ [] ∧
      ∃ sym, IsNi e sym := by
  have h' := h
  rw [wholeL_snd] at h'
  by_cases hb : a0.bits32 = e.bits32
  · have hE := wholeEntriesL_snd text sr (a0.adjustAbi e) e
    rcases ht : tableEntries (a0.adjustAbi e) e (sr.kenv (a0.adjustAbi e)) with ex | entries
    · unfold extractSyscalls at h'
      rw [if_neg (not_not.2 hb)] at h'
      simp only at h'
      rw [ht] at h'
      cases h'
    · rw [ht] at hE
      by_cases hne : entries = []
      · left
        unfold wholeL
        rw [if_neg (not_not.2 hb)]
        simp only
        rw [lm_bind_at _ _ entries hE, hne]
        intro hist
        show TellsWhy W T H hist ((_ ++ ([noVaddrCall] ++ [])).map _)
        rw [List.append_nil, List.map_append]
        refine tells_append _ (tells_of ?_)
        show Closing W T H hist [noVaddrCall.event]
        rw [noVaddr_event]
        exact .rejected _ .noVaddr
      · by_cases hn : e.niSyscalls = []
        · left
          have h1 : entries.isEmpty = false := by cases entries with | nil => exact absurd rfl hne | cons => rfl
          have h2 : e.niSyscalls.isEmpty = true := by rw [hn]; rfl
          unfold wholeL
          rw [if_neg (not_not.2 hb)]
          simp only
          rw [lm_bind_at _ _ entries hE, h1, h2]
          intro hist
          show TellsWhy W T H hist ((_ ++ ([noNiCall] ++ [])).map _)
          rw [List.append_nil, List.map_append]
          refine tells_append _ (tells_of ?_)
          show Closing W T H hist [noNiCall.event]
          rw [noNi_event]
          exact .rejected _ .noNi
        · right
          obtain ⟨x, hx⟩ := List.exists_mem_of_ne_nil _ hn
          exact ⟨entries, hb, rfl, hne, x, (mem_niSyscalls e x).1 hx⟩
  · left
    unfold wholeL
    rw [if_pos hb]
    intro hist
    show TellsWhy W T H hist (([bitsCall a0.bits32] ++ []).map _)
    rw [List.append_nil]
    refine tells_of ?_
    show Closing W T H hist [(bitsCall a0.bits32).event]
    rw [bits_event]
    cases a0.bits32
    · exact .rejected _ .wide
    · exact .rejected _ .narrow

theorem cx_report (args : Args) (k : Analysis) (vmlinux : Path) (hv : vmlinuxPath args = some vmlinux)
    (hk : ∃ s, (newAnalysis w (args.arch.map lower) vmlinux (pathOf args.kdir) s).1 = .ok k) :
    ClosesX w.toWorld t v.high (fun r => r ≠ 0) (fun s => NothingLeft w args s.b.hist) (mainReportR w t v args k vmlinux) := by
  intro s h
  have hc := cl_extract w t v k vmlinux (pathOf args.kdir) (pathOf args.remap)
  have hrun := extractR_run w t k vmlinux (pathOf args.kdir) (pathOf args.remap) s
  by_cases he : (extractR w t k vmlinux (pathOf args.kdir) (pathOf args.remap) s).2.1 = .ok []
  · have hm : mainReportR w t v args k vmlinux s =
        ((extractR w t k vmlinux (pathOf args.kdir) (pathOf args.remap) s).1 ++ [], .ok 1, s) := by
      unfold mainReportR
      show RM.bind _ _ s = _
      unfold RM.bind
      have h2 : (extractR w t k vmlinux (pathOf args.kdir) (pathOf args.remap) s).2 = (.ok [], s) := Prod.ext he (congrArg Prod.snd hrun :)
      rw [h2]
      rfl
    rw [hm, List.append_nil]
    have hw : (wholeL t.insn t.symbol (surroundingsOf w s.b.hist vmlinux (pathOf args.kdir) (pathOf args.remap)) k.arch k.elf k.version).2 = .ok [] := he
    rcases whole_empty (W := w.toWorld) (T := t) (H := v.high) _ _ _ _ _ _ hw with h1 | ⟨entries, hb, ht, hne, hni⟩
    · left
      unfold extractR
      simp only
      rw [hw]
      simpa using h1 s.b.hist
    · right
      obtain ⟨s0, hs0⟩ := hk
      exact ⟨vmlinux, s0, k, entries, hv, hs0, hb, ht, hne, hni, by rw [← he, hrun]⟩
  · left
    unfold mainReportR at h ⊢
    change (∃ n, (RM.bind _ _ s).2.1 = _) ∨ (∃ x, (RM.bind _ _ s).2.1 = _ ∧ _) at h
    show TellsWhy w.toWorld t v.high (RM.bind _ _ s).2.2.b.hist (RM.bind _ _ s).1
    unfold RM.bind at h ⊢
    rcases hr : (extractR w t k vmlinux (pathOf args.kdir) (pathOf args.remap) s).2 with ⟨e | x, s'⟩
    · rw [hr] at h
      simp only [Except.error.injEq] at h
      rcases h with ⟨n, h⟩ | ⟨y, h, -⟩
      · have := hc s (.inl ⟨n, by rw [hr]; exact congrArg Except.error h⟩)
        rw [hr] at this
        exact this
      · cases h
    · rw [hr] at h he
      simp only at h ⊢
      have hx : x.isEmpty = false := by
        cases x with
        | nil => exact absurd rfl he
        | cons => rfl
      rw [hx] at h ⊢
      refine tells_append _ ?_
      refine (?_ : Closes w.toWorld t v.high (fun r : Nat => r ≠ 0) _) s' h
      simp only [Bool.false_eq_true, if_false]
      exact cl_bind (cl_lift (ne_mapRes _ _ fun sc _ => ne_relativize _ _ sc)) fun _ => cl_bind (cl_eprints v _) fun _ =>
        cl_bind (cl_output w t v _ _) fun _ => cl_bind (cl_modify _) fun _ => cl_pure (by simp)

theorem cx_analyze (args : Args) :
    ClosesX w.toWorld t v.high (fun r => r ≠ 0) (fun s => NothingLeft w args s.b.hist) (mainAnalyzeR w t v args (args.arch.map lower)) := by
  unfold mainAnalyzeR
  dsimp only
  refine cx_ite _ (fun _ => cx_of (cl_say1 v _ _ .noImage)) fun _ => ?_
  split
  · exact cx_of (cl_raise fun n h => by cases h)
  · next vm hv =>
    refine cx_bind cl_get fun s _ _ => ?_
    refine cx_ite _ (fun _ => cx_of (cl_say2 v _ _ _ (.noVmlinux _))) fun _ => ?_
    refine cx_ite _ (fun _ => cx_of (cl_say1 v _ _ .noReadelf)) fun _ => ?_
    refine cx_bind (cl_catch w t v _ _ _ (cl_newAnalysis w t v _ _ _)) fun k s1 hk => ?_
    refine cx_bind (cl_eprint v _) fun _ _ _ => cx_bind (cl_auto w t v args k) fun _ _ _ => cx_report w t v args k vm hv ⟨s1, ?_⟩
    rw [← newAnalysisR_run w t]
    show (newAnalysisR w t _ _ _ s1).2.1 = _
    unfold catchInitR at hk
    rcases hr : (newAnalysisR w t (args.arch.map lower) vm (pathOf args.kdir) s1).2 with ⟨e | x, s'⟩
    · exfalso
      rw [hr] at hk
      simp only at hk
      rcases hi : initMessages w.prog (args.arch.map lower) (detectedArch w vm s) e with _ | ls
      · rw [hi] at hk; cases hk
      · rw [hi] at hk
        simp only at hk
        change (RM.bind (eprintsR v ls) _ s').2.1 = _ at hk
        unfold RM.bind at hk
        rcases hq : (eprintsR v ls s').2 with ⟨e' | u, s''⟩
        · rw [hq] at hk; cases hk
        · rw [hq] at hk; cases hk
    · rw [hr] at hk
      exact hk

theorem high_iff (q n : Nat) : (setupLogging q n).high = decide (3 ≤ n) := by
  unfold setupLogging
  rw [Bool.eq_iff_iff]
  simp
  omega

theorem cx_body (help : Str) (args : Args) :
    ClosesX w.toWorld t (decide (3 ≤ args.verbose)) (fun r => r ≠ 0) (fun s => NothingLeft w args s.b.hist) (mainBodyR w t help args) := by
  rw [← high_iff args.quiet args.verbose]
  unfold mainBodyR
  dsimp only
  refine cx_ite _ (fun _ => cx_of ?_) fun _ => ?_
  · refine cl_ite _ (fun _ => cl_bind (cl_eprint _ _) fun _ => cl_pure (by simp)) fun _ => cl_say2 _ _ _ _ (.badArch _)
  refine cx_ite _ (fun _ => cx_of (cl_say2 _ _ _ _ .nothingGiven)) fun _ => ?_
  refine cx_ite _ (fun _ => cx_of (cl_say1 _ _ _ .needKdir)) fun _ => ?_
  refine cx_ite _ (fun _ => cx_of (cl_say2 _ _ _ _ .needArch)) fun _ => ?_
  unfold mainRunR
  dsimp only
  refine cx_ite _ (fun _ => ?_) fun _ => ?_
  · exact cx_bind (cl_eprint _ _) fun _ _ _ => cx_bind (cl_git w t _ _ _) fun _ _ _ =>
      cx_ite _ (fun _ => cx_of (cl_mainBuild w t _ args _)) fun _ => cx_analyze w t _ args
  · exact cx_bind (cl_pure id) fun _ _ _ => cx_ite _ (fun _ => cx_of (cl_mainBuild w t _ args _)) fun _ => cx_analyze w t _ args

end

end Verif
