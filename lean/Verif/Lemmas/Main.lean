import Verif.Lemmas.Build
import Verif.Spec.Main
/-! # Lemmas: the command line program -/
set_option autoImplicit false

namespace Verif
open Spec

/-! ## Actions -/

theorem mm_bind {α β : Type} (m : MM α) (f : α → MM β) (s : MState) :
    (m >>= f) s = match m s with
      | (.ok x, s') => f x s'
      | (.error e, s') => (.error e, s') := rfl

theorem mm_pure {α : Type} (x : α) (s : MState) : MM.pure x s = (.ok x, s) := rfl

theorem mm_raise {α : Type} (e : Exc) (s : MState) : (MM.raise e : MM α) s = (.error e, s) := rfl

theorem mm_modify (f : MState → MState) (s : MState) : MM.modify f s = (.ok (), f s) := rfl

theorem mm_get (s : MState) : MM.get s = (.ok s, s) := rfl

theorem mm_lift {α : Type} (r : Res α) (s : MState) : MM.lift r s = (r, s) := rfl

/-- the state after `eprint` -/
def MState.say (v : Verbosity) (msg : Str) (s : MState) : MState :=
  if v.silent then s else { s with err := s.err ++ [msg] }

theorem eprint_eq (v : Verbosity) (msg : Str) (s : MState) : eprint v msg s = (.ok (), s.say v msg) := by
  unfold eprint MState.say
  split <;> rfl

theorem say_b (v : Verbosity) (msg : Str) (s : MState) : (s.say v msg).b = s.b := by unfold MState.say; split <;> rfl
theorem say_dirs (v : Verbosity) (msg : Str) (s : MState) : (s.say v msg).dirs = s.dirs := by unfold MState.say; split <;> rfl
theorem say_out (v : Verbosity) (msg : Str) (s : MState) : (s.say v msg).out = s.out := by unfold MState.say; split <;> rfl
theorem say_store (v : Verbosity) (msg : Str) (s : MState) : (s.say v msg).store = s.store := by unfold MState.say; split <;> rfl

theorem say_err (v : Verbosity) (msg : Str) (s : MState) (h : v.silent = false) : (s.say v msg).err = s.err ++ [msg] := by
  unfold MState.say; rw [h]; rfl

theorem untouched_say {s s' : MState} (v : Verbosity) (msg : Str) (h : Untouched s s') : Untouched s (s'.say v msg) := by
  obtain ⟨h1, h2, h3, h4⟩ := h
  exact ⟨by rw [say_b, h1], by rw [say_dirs, h2], by rw [say_out, h3], by rw [say_store, h4]⟩

theorem untouched_refl (s : MState) : Untouched s s := ⟨rfl, rfl, rfl, rfl⟩

/-- several messages -/
def MState.sayAll (v : Verbosity) (ls : List Str) (s : MState) : MState :=
  if v.silent then s else { s with err := s.err ++ ls }

theorem eprints_eq (v : Verbosity) (ls : List Str) : ∀ (s : MState), eprints v ls s = (.ok (), s.sayAll v ls) := by
  induction ls with
  | nil =>
    intro s
    unfold MState.sayAll
    split
    · rfl
    · simp [eprints, mm_pure]
  | cons l ls ih =>
    intro s
    unfold eprints
    simp only [mm_bind, eprint_eq, ih]
    unfold MState.sayAll MState.say
    split <;> simp

theorem talkative (args : Args) : Talkative args ↔ (setupLogging args.quiet args.verbose).silent = false := by
  unfold Talkative setupLogging
  simp only [decide_eq_false_iff_not]
  split <;> omega

theorem given_iff (o : Option Str) : given o = true ↔ Given o := by
  unfold given Given
  cases o with
  | none => simp
  | some s => cases s <;> simp

theorem pathOf_given {o : Option Str} : (∃ p, pathOf o = some p) ↔ Given o := by
  unfold pathOf Given
  cases o with
  | none => simp
  | some s => cases s <;> simp

theorem pathOf_some {s : Str} (h : s ≠ []) : pathOf (some s) = some (parsePath s) := by
  cases s with
  | nil => exact absurd rfl h
  | cons c cs => rfl

theorem pathOf_none {o : Option Str} : pathOf o = none ↔ ¬ Given o := by
  rw [← pathOf_given]
  cases pathOf o <;> simp

/-! ## The commands an action runs -/

/-- an action of Model/Build only runs commands with a property -/
def BEmits {α : Type} (P : Run → Prop) (m : BM α) : Prop := ∀ s, ∃ R, (m s).2.hist = s.hist ++ R ∧ ∀ r ∈ R, P r

/-- an action only runs commands with a property -/
def Emits {α : Type} (P : Run → Prop) (m : MM α) : Prop := ∀ s, ∃ R, (m s).2.b.hist = s.b.hist ++ R ∧ ∀ r ∈ R, P r

theorem BEmits.quiet {α : Type} {P : Run → Prop} {m : BM α} (h : ∀ s, (m s).2.hist = s.hist) : BEmits P m :=
  fun s => ⟨[], by simp [h s], by simp⟩

theorem Emits.quiet {α : Type} {P : Run → Prop} {m : MM α} (h : ∀ s, (m s).2.b.hist = s.b.hist) : Emits P m :=
  fun s => ⟨[], by simp [h s], by simp⟩

theorem BEmits.mono {α : Type} {P Q : Run → Prop} {m : BM α} (h : BEmits P m) (hpq : ∀ r, P r → Q r) : BEmits Q m := by
  intro s
  obtain ⟨R, h1, h2⟩ := h s
  exact ⟨R, h1, fun r hr => hpq r (h2 r hr)⟩

theorem Emits.mono {α : Type} {P Q : Run → Prop} {m : MM α} (h : Emits P m) (hpq : ∀ r, P r → Q r) : Emits Q m := by
  intro s
  obtain ⟨R, h1, h2⟩ := h s
  exact ⟨R, h1, fun r hr => hpq r (h2 r hr)⟩

theorem BEmits.bind {α β : Type} {P : Run → Prop} {m : BM α} {f : α → BM β} (hm : BEmits P m) (hf : ∀ x, BEmits P (f x)) :
    BEmits P (m >>= f) := by
  intro s
  obtain ⟨R, h1, h2⟩ := hm s
  rw [bm_bind]
  cases he : m s with
  | mk res s' =>
    rw [he] at h1
    cases res with
    | error e => exact ⟨R, h1, h2⟩
    | ok x =>
      obtain ⟨S, g1, g2⟩ := hf x s'
      refine ⟨R ++ S, by simp only [g1]; rw [h1, List.append_assoc], ?_⟩
      intro r hr
      rcases List.mem_append.1 hr with hr | hr
      · exact h2 r hr
      · exact g2 r hr

theorem Emits.bind {α β : Type} {P : Run → Prop} {m : MM α} {f : α → MM β} (hm : Emits P m) (hf : ∀ x, Emits P (f x)) :
    Emits P (m >>= f) := by
  intro s
  obtain ⟨R, h1, h2⟩ := hm s
  rw [mm_bind]
  cases he : m s with
  | mk res s' =>
    rw [he] at h1
    cases res with
    | error e => exact ⟨R, h1, h2⟩
    | ok x =>
      obtain ⟨S, g1, g2⟩ := hf x s'
      refine ⟨R ++ S, by simp only [g1]; rw [h1, List.append_assoc], ?_⟩
      intro r hr
      rcases List.mem_append.1 hr with hr | hr
      · exact h2 r hr
      · exact g2 r hr

theorem Emits.ofB {α : Type} {P : Run → Prop} {m : BM α} (h : BEmits P m) : Emits P (MM.ofB m) := by
  intro s
  obtain ⟨R, h1, h2⟩ := h s.b
  exact ⟨R, h1, h2⟩

theorem emits_eprint {P : Run → Prop} (v : Verbosity) (msg : Str) : Emits P (eprint v msg) :=
  .quiet fun s => by rw [eprint_eq, say_b]

theorem emits_pure {α : Type} {P : Run → Prop} (x : α) : Emits P (MM.pure x) := .quiet fun _ => rfl
theorem emits_raise {α : Type} {P : Run → Prop} (e : Exc) : Emits P (MM.raise e : MM α) := .quiet fun _ => rfl
theorem emits_lift {α : Type} {P : Run → Prop} (r : Res α) : Emits P (MM.lift r) := .quiet fun _ => rfl
theorem emits_get {P : Run → Prop} : Emits P MM.get := .quiet fun _ => rfl

theorem emits_eprints {P : Run → Prop} (v : Verbosity) (ls : List Str) : Emits P (eprints v ls) :=
  .quiet fun s => by rw [eprints_eq]; unfold MState.sayAll; split <;> rfl

theorem bemits_exec {P : Run → Prop} (w : World) (argv : List Str) (cwd : Option Path) (input : Option Str)
    (h : ∀ mf, P ⟨argv, cwd, input, false, mf⟩) : BEmits P (exec w argv cwd input) := by
  intro s
  rw [exec_eq]
  exact ⟨[s.runOf argv cwd input], rfl, by intro r hr; rw [List.mem_singleton] at hr; subst hr; exact h _⟩

theorem bemits_notStarted {α : Type} {P : Run → Prop} (cwd : Option Path) (m : BM α) (h : BEmits P m) : BEmits P (notStarted cwd m) := by
  unfold notStarted
  split
  · exact .quiet fun _ => rfl
  · exact h

theorem bemits_ensure {P : Run → Prop} (w : World) (argv : List Str) (cwd : Option Path) (input : Option Str)
    (h : ∀ mf, P ⟨argv, cwd, input, false, mf⟩) : BEmits P (ensureCommand w argv cwd input) := by
  unfold ensureCommand
  refine (bemits_exec w argv cwd input h).bind fun r => ?_
  split
  · exact bemits_notStarted _ _ (.quiet fun _ => rfl)
  · split
    · exact .quiet fun _ => rfl
    · exact .quiet fun _ => rfl

theorem bemits_run {P : Run → Prop} (w : World) (argv : List Str) (cwd : Option Path) (input : Option Str)
    (h : ∀ mf, P ⟨argv, cwd, input, false, mf⟩) : BEmits P (runCommand w argv cwd input) := by
  unfold runCommand
  refine (bemits_exec w argv cwd input h).bind fun r => ?_
  split
  · exact bemits_notStarted _ _ (.quiet fun _ => rfl)
  · exact .quiet fun _ => rfl

/-- commands of configuring and building -/
def BuildRun (r : Run) : Prop := Runs cs!"make" r ∨ Runs cs!"./scripts/config" r

section
variable (w : World) (b : Builder)

theorem bemits_make (t : Str) (input : Option Str) : BEmits (Runs cs!"make") (make w b t input) := by
  unfold make
  exact (bemits_ensure w _ _ _ (fun mf => rfl)).bind fun _ => .quiet fun _ => rfl

theorem bemits_tryMake (t : Str) : BEmits (Runs cs!"make") (tryMake w b t) := bemits_run w _ _ _ (fun mf => rfl)

theorem bemits_getVersion : BEmits (Runs cs!"make") (getVersion w b) := by
  unfold getVersion
  refine BEmits.bind (.quiet fun _ => rfl) fun s => ?_
  split
  · exact .quiet fun _ => rfl
  · refine (bemits_ensure w _ _ _ (fun mf => rfl)).bind fun out => ?_
    split
    · exact .quiet fun _ => rfl
    · exact .quiet fun _ => rfl

theorem bemits_clean : BEmits (Runs cs!"make") (clean w b) := by
  unfold clean
  exact BEmits.bind (.quiet fun _ => rfl) fun _ => bemits_make w b _ _

theorem bemits_sync : BEmits (Runs cs!"make") (syncConfig w b) := by
  unfold syncConfig
  refine (bemits_getVersion w b).bind fun v => ?_
  split
  · exact bemits_make w b _ _
  · exact bemits_make w b _ _

theorem bemits_performK (es : List KEvent) : BEmits (Runs cs!"./scripts/config") (performK w b es) := by
  induction es with
  | nil => exact .quiet fun _ => rfl
  | cons x es ih =>
    cases x <;> unfold performK
    all_goals first
      | exact ih
      | exact (bemits_ensure w _ _ _ (fun mf => rfl)).bind fun _ => ih

theorem bemits_performAll (p : List KEvent × Res Unit) : BEmits (Runs cs!"./scripts/config") (performAll w b p) := by
  unfold performAll
  exact (bemits_performK w b p.1).bind fun _ => .quiet fun _ => rfl

theorem bemits_check (o : Dict Str (List Str)) : BEmits (Runs cs!"./scripts/config") (applyOptionsCheck w b o) := by
  unfold applyOptionsCheck
  split
  · exact .quiet fun _ => rfl
  · refine BEmits.bind (.quiet fun _ => rfl) fun s => ?_
    split
    · exact .quiet fun _ => rfl
    · exact bemits_performAll w b _

theorem bemits_forM (ts : List Str) : BEmits (Runs cs!"make") (ts.forM fun t => make w b t none) := by
  induction ts with
  | nil => exact .quiet fun _ => rfl
  | cons t ts ih => exact (bemits_make w b t none).bind fun _ => ih

theorem bemits_configure : BEmits BuildRun (configure w b) := by
  have hm : ∀ {α : Type} {m : BM α}, BEmits (Runs cs!"make") m → BEmits BuildRun m := fun h => h.mono fun _ => Or.inl
  have hc : ∀ {α : Type} {m : BM α}, BEmits (Runs cs!"./scripts/config") m → BEmits BuildRun m := fun h => h.mono fun _ => Or.inr
  unfold configure
  refine BEmits.bind (.quiet fun _ => rfl) fun _ => ?_
  refine BEmits.bind (hm (bemits_forM w b _)) fun _ => ?_
  refine BEmits.bind (hm (bemits_getVersion w b)) fun v => ?_
  refine BEmits.bind (hc (bemits_performAll w b _)) fun _ => ?_
  refine BEmits.bind (hm (bemits_sync w b)) fun _ => ?_
  refine BEmits.bind (hm (bemits_getVersion w b)) fun v => ?_
  refine BEmits.bind (hc (bemits_performAll w b _)) fun _ => ?_
  refine BEmits.bind (hm (bemits_sync w b)) fun _ => ?_
  refine BEmits.bind (hm (bemits_getVersion w b)) fun v => ?_
  refine BEmits.bind (hc (bemits_check w b _)) fun _ => ?_
  refine BEmits.bind (hm (bemits_sync w b)) fun _ => ?_
  refine BEmits.bind (hm (bemits_getVersion w b)) fun v => ?_
  refine BEmits.bind (hc (bemits_check w b _)) fun _ => ?_
  exact hm (bemits_sync w b)

theorem bemits_tick {P : Run → Prop} (p : Point) : BEmits P (tick w p) :=
  .quiet fun s => by unfold tick; split <;> rfl

theorem bemits_trySet {P : Run → Prop} (lvl : Nat) : BEmits P (trySetOptLevel w lvl) := by
  unfold trySetOptLevel
  refine BEmits.bind (.quiet fun _ => rfl) fun s => ?_
  refine BEmits.bind (.quiet fun _ => rfl) fun _ => ?_
  split
  · exact .quiet fun _ => rfl
  · refine BEmits.bind (.quiet fun _ => rfl) fun _ => ?_
    exact (bemits_tick w _).bind fun _ => .quiet fun _ => rfl

theorem bemits_restore {P : Run → Prop} (lvl : Nat) : BEmits P (restoreMakefile w lvl) := by
  unfold restoreMakefile
  refine BEmits.bind (.quiet fun _ => rfl) fun s => ?_
  simp only []
  split
  · refine BEmits.bind (.quiet fun _ => rfl) fun _ => ?_
    exact (bemits_tick w _).bind fun _ => .quiet fun _ => rfl
  · exact BEmits.bind (.quiet fun _ => rfl) fun _ => .quiet fun _ => rfl

theorem bemits_build (opt : Bool) : BEmits (Runs cs!"make") (build w b opt) := by
  unfold build
  refine BEmits.bind (.quiet fun _ => rfl) fun _ => ?_
  split
  · refine (bemits_trySet w 0).bind fun p => ?_
    split
    · refine BEmits.bind (.quiet fun _ => rfl) fun _ => ?_
      refine (bemits_tryMake w b _).bind fun res => ?_
      refine (bemits_restore w 0).bind fun _ => ?_
      split
      · exact .quiet fun _ => rfl
      · refine (bemits_trySet w 1).bind fun _ => ?_
        refine (bemits_tryMake w b _).bind fun res => ?_
        refine (bemits_restore w 1).bind fun _ => ?_
        split
        · exact .quiet fun _ => rfl
        · exact bemits_make w b _ _
    · exact bemits_make w b _ _
  · exact bemits_make w b _ _

theorem bemits_firstVersion (kdir : Path) : BEmits (Runs cs!"make") (firstVersion w kdir) := by
  unfold firstVersion
  refine (bemits_ensure w _ _ _ (fun mf => rfl)).bind fun out => ?_
  split
  · exact .quiet fun _ => rfl
  · exact .quiet fun _ => rfl

end

/-- the constructor reads the version in the same way as the property does -/
theorem firstVersion_eq (w : World) (b : Builder) (s : BState) (h : s.version = none) :
    firstVersion w b.kdir s = getVersion w b s := by
  unfold firstVersion getVersion
  simp only [bm_bind, bm_get, h]
  rfl

/-- with an ELF, `make` is not asked -/
theorem kernelVersion_no_make (e : Elf) (kdir : Bool) (m m' : Res Str) :
    kernelVersion (some e) kdir m = kernelVersion (some e) kdir m' := rfl

theorem kernelInit_no_make (n : Option Str) (e : Elf) (kdir : Bool) (m m' : Res Str) :
    kernelInit n (some e) kdir m = kernelInit n (some e) kdir m' := rfl

end Verif
