import Verif.Lemmas.Main3
import Verif.Props.Arch
/-! # Lemmas: building and the whole program -/
set_option autoImplicit false

namespace Verif
open Spec

/-- an action that writes nothing to standard output -/
def Mute {α : Type} (m : MM α) : Prop := ∀ s, (m s).2.out = s.out

theorem Mute.bind {α β : Type} {m : MM α} {f : α → MM β} (hm : Mute m) (hf : ∀ x, Mute (f x)) : Mute (m >>= f) := by
  intro s
  have h := hm s
  rw [mm_bind]
  cases he : m s with
  | mk res s' =>
    rw [he] at h
    cases res with
    | error e => exact h
    | ok x => rw [← h]; exact hf x s'

theorem mute_ofB {α : Type} (m : BM α) : Mute (MM.ofB m) := fun _ => rfl

theorem mute_eprint (v : Verbosity) (msg : Str) : Mute (eprint v msg) := fun s => by rw [eprint_eq, say_out]

theorem mute_catch {α : Type} (w : MWorld) (v : Verbosity) (n : Option Str) (d : Option (Kind × Bool × List Str))
    {m : MM α} (h : Mute m) : Mute (catchInit w v n d m) := by
  intro s
  have h := h s
  unfold catchInit
  cases he : m s with
  | mk res s' =>
    rw [he] at h
    cases res with
    | ok x => exact h
    | error e =>
      simp only []
      split
      · exact h
      · rw [mm_bind, eprints_eq, ← h]
        simp only [mm_raise]
        unfold MState.sayAll
        split <;> rfl

theorem emits_catch {α : Type} {P : Run → Prop} (w : MWorld) (v : Verbosity) (n : Option Str) (d : Option (Kind × Bool × List Str))
    {m : MM α} (h : Emits P m) : Emits P (catchInit w v n d m) := by
  intro s
  obtain ⟨R, h1, h2⟩ := h s
  refine ⟨R, ?_, h2⟩
  unfold catchInit
  cases he : m s with
  | mk res s' =>
    rw [he] at h1
    cases res with
    | ok x => exact h1
    | error e =>
      simp only []
      split
      · exact h1
      · rw [mm_bind, eprints_eq, ← h1]
        simp only [mm_raise]
        unfold MState.sayAll
        split <;> rfl

theorem emits_gcc (w : MWorld) (cmd : Str) : Emits (Runs cmd) (gccVersion w cmd) := by
  unfold gccVersion
  refine Emits.bind (.ofB (bemits_ensure _ _ _ _ fun _ => rfl)) fun out => ?_
  split
  · exact emits_raise _
  · exact emits_pure _

theorem mute_gcc (w : MWorld) (cmd : Str) : Mute (gccVersion w cmd) := by
  unfold gccVersion
  refine Mute.bind (mute_ofB _) fun out => ?_
  split
  · exact fun _ => rfl
  · exact fun _ => rfl

theorem emits_newBuilder (w : MWorld) (n : Option Str) (kdir outdir : Option Path) (cross : Str) :
    Emits (Runs cs!"make") (newBuilder w n kdir outdir cross) := by
  unfold newBuilder
  split
  · exact emits_raise _
  · exact emits_raise _
  · refine Emits.bind (.ofB (bemits_firstVersion _ _)) fun v => ?_
    refine Emits.bind emits_get fun s => ?_
    refine Emits.bind (emits_lift _) fun p => ?_
    exact Emits.bind (.quiet fun _ => rfl) fun _ => emits_pure _

theorem mute_newBuilder (w : MWorld) (n : Option Str) (kdir outdir : Option Path) (cross : Str) :
    Mute (newBuilder w n kdir outdir cross) := by
  unfold newBuilder
  split
  · exact fun _ => rfl
  · exact fun _ => rfl
  · refine Mute.bind (mute_ofB _) fun v => ?_
    refine Mute.bind (fun _ => rfl) fun s => ?_
    refine Mute.bind (fun _ => rfl) fun p => ?_
    exact Mute.bind (fun _ => rfl) fun _ => fun _ => rfl

/-- the name of the compiler -/
def gccName (args : Args) : Str := args.cross.getD [] ++ cs!"gcc"

theorem mute_build (w : MWorld) (v : Verbosity) (args : Args) (n : Option Str) : Mute (mainBuild w v args n) := by
  unfold mainBuild
  refine Mute.bind (fun _ => rfl) fun s => ?_
  simp only []
  split
  · exact (mute_eprint _ _).bind fun _ => fun _ => rfl
  · exact (mute_eprint _ _).bind fun _ => fun _ => rfl
  · refine Mute.bind (fun _ => rfl) fun _ => ?_
    split
    · exact (mute_eprint _ _).bind fun _ => (mute_eprint _ _).bind fun _ => fun _ => rfl
    · have rest : Mute (do
          let b ← catchInit w v n none (newBuilder w n (pathOf args.kdir) (pathOf args.out) (args.cross.getD []))
          if args.build || args.config then do
            eprint v cs!"Cleaning kernel sources"
            MM.ofB (clean w.toWorld b)
            let ver ← MM.ofB (getVersion w.toWorld b)
            eprint v (cs!"Detected kernel version: " ++ versionStr ver cs!"make")
            eprint v cs!"Configuring kernel"
            MM.ofB (configure w.toWorld b)
            if args.build then do
              eprint v cs!"Building kernel (might take a while)"
              MM.ofB (build w.toWorld b args.disableOpt)
            else eprint v cs!"Done"
          else do
            eprint v cs!"Cleaning kernel sources"
            MM.ofB (clean w.toWorld b)
            eprint v cs!"Done"
          MM.pure 0 : MM Nat) := by
        refine (mute_catch _ _ _ _ (mute_newBuilder _ _ _ _ _)).bind fun b => ?_
        split
        · refine (mute_eprint _ _).bind fun _ => (mute_ofB _).bind fun _ => (mute_ofB _).bind fun _ => (mute_eprint _ _).bind fun _ =>
            (mute_eprint _ _).bind fun _ => (mute_ofB _).bind fun _ => ?_
          split
          · exact (mute_eprint _ _).bind fun _ => (mute_ofB _).bind fun _ => fun _ => rfl
          · exact (mute_eprint _ _).bind fun _ => fun _ => rfl
        · exact (mute_eprint _ _).bind fun _ => (mute_ofB _).bind fun _ => (mute_eprint _ _).bind fun _ => fun _ => rfl
      split
      · exact (mute_gcc _ _).bind fun _ => (mute_eprint _ _).bind fun _ => rest
      · exact Mute.bind (fun _ => rfl) fun _ => rest

theorem emits_build (w : MWorld) (v : Verbosity) (args : Args) (n : Option Str) :
    Emits (fun r => BuildRun r ∨ Runs (gccName args) r) (mainBuild w v args n) := by
  have hm : ∀ {α : Type} {m : BM α}, BEmits (Runs cs!"make") m → Emits (fun r => BuildRun r ∨ Runs (gccName args) r) (MM.ofB m) :=
    fun h => (Emits.ofB h).mono fun _ h => Or.inl (Or.inl h)
  unfold mainBuild
  refine Emits.bind emits_get fun s => ?_
  simp only []
  split
  · exact (emits_eprint _ _).bind fun _ => emits_pure _
  · exact (emits_eprint _ _).bind fun _ => emits_pure _
  · refine Emits.bind (.quiet fun _ => rfl) fun _ => ?_
    split
    · exact (emits_eprint _ _).bind fun _ => (emits_eprint _ _).bind fun _ => emits_pure _
    · have rest : Emits (fun r => BuildRun r ∨ Runs (gccName args) r) (do
          let b ← catchInit w v n none (newBuilder w n (pathOf args.kdir) (pathOf args.out) (args.cross.getD []))
          if args.build || args.config then do
            eprint v cs!"Cleaning kernel sources"
            MM.ofB (clean w.toWorld b)
            let ver ← MM.ofB (getVersion w.toWorld b)
            eprint v (cs!"Detected kernel version: " ++ versionStr ver cs!"make")
            eprint v cs!"Configuring kernel"
            MM.ofB (configure w.toWorld b)
            if args.build then do
              eprint v cs!"Building kernel (might take a while)"
              MM.ofB (build w.toWorld b args.disableOpt)
            else eprint v cs!"Done"
          else do
            eprint v cs!"Cleaning kernel sources"
            MM.ofB (clean w.toWorld b)
            eprint v cs!"Done"
          MM.pure 0 : MM Nat) := by
        refine (emits_catch _ _ _ _ ((emits_newBuilder _ _ _ _ _).mono fun _ h => Or.inl (Or.inl h))).bind fun b => ?_
        split
        · refine (emits_eprint _ _).bind fun _ => (hm (bemits_clean _ _)).bind fun _ => (hm (bemits_getVersion _ _)).bind fun _ =>
            (emits_eprint _ _).bind fun _ => (emits_eprint _ _).bind fun _ =>
            ((Emits.ofB (bemits_configure _ _)).mono fun _ h => Or.inl h).bind fun _ => ?_
          split
          · exact (emits_eprint _ _).bind fun _ => (hm (bemits_build _ _ _)).bind fun _ => emits_pure _
          · exact (emits_eprint _ _).bind fun _ => emits_pure _
        · exact (emits_eprint _ _).bind fun _ => (hm (bemits_clean _ _)).bind fun _ => (emits_eprint _ _).bind fun _ => emits_pure _
      split
      · exact ((emits_gcc _ _).mono fun _ h => Or.inr h).bind fun _ => (emits_eprint _ _).bind fun _ => rest
      · exact Emits.bind (emits_pure _) fun _ => rest

theorem emits_clean (w : MWorld) (v : Verbosity) (args : Args) (n : Option Str) (hc : args.config = false) (hb : args.build = false) :
    Emits (Runs cs!"make") (mainBuild w v args n) := by
  unfold mainBuild
  refine Emits.bind emits_get fun s => ?_
  simp only [hc, hb, Bool.or_self, Bool.false_eq_true, if_false]
  split
  · exact (emits_eprint _ _).bind fun _ => emits_pure _
  · exact (emits_eprint _ _).bind fun _ => emits_pure _
  · refine Emits.bind (.quiet fun _ => rfl) fun _ => ?_
    split
    · exact (emits_eprint _ _).bind fun _ => (emits_eprint _ _).bind fun _ => emits_pure _
    · refine Emits.bind (emits_pure _) fun _ => ?_
      refine (emits_catch _ _ _ _ (emits_newBuilder _ _ _ _ _)).bind fun b => ?_
      exact (emits_eprint _ _).bind fun _ => (Emits.ofB (bemits_clean _ _)).bind fun _ => (emits_eprint _ _).bind fun _ => emits_pure _

/-! ## The checks of the command line -/

theorem archName_iff (n : Str) : ArchName n ↔ dmem n supportedArchs = true := (C27_names n).1.symm

theorem not_archName {n : Str} (h : dmem n supportedArchs = false) : ¬ ArchName n := by
  rw [archName_iff, h]; simp

theorem asks_unknown {args : Args} (h : AsksForHelp args) : UnknownArch args := by
  obtain ⟨a, ha, h⟩ := h
  refine ⟨a, ha, ?_⟩
  rcases h with h | h <;> rw [h] <;> exact not_archName (by decide +kernel)

theorem unknown_iff (args : Args) : ((args.arch.map lower).any fun a => !dmem a supportedArchs) = true ↔ UnknownArch args := by
  unfold UnknownArch
  cases args.arch with
  | none => simp
  | some a => simp [archName_iff, lower]

theorem given_lower (o : Option Str) : given (o.map lower) = given o := by
  cases o with
  | none => rfl
  | some s => cases s <;> rfl

theorem help_iff (args : Args) :
    (args.arch.map lower = some cs!"help" ∨ args.arch.map lower = some cs!"?") ↔ AsksForHelp args := by
  unfold AsksForHelp
  cases args.arch with
  | none => simp
  | some a => simp [lower]

theorem main_help (w : MWorld) (help : Str) (args : Args) (s : MState) (h : AsksForHelp args) :
    main w help args s = (.ok 0, s.say (setupLogging args.quiet args.verbose) help) := by
  unfold main
  simp only []
  rw [if_pos ((unknown_iff args).2 (asks_unknown h)), if_pos ((help_iff args).2 h), mm_bind, eprint_eq]
  rfl

theorem main_invalid (w : MWorld) (help : Str) (args : Args) (s : MState) (h : Invalid args) (hh : ¬ AsksForHelp args) :
    ∃ ls : List Str, ls ≠ [] ∧ (∀ l ∈ ls, l ≠ []) ∧
      main w help args s = (.ok 1, s.sayAll (setupLogging args.quiet args.verbose) ls) := by
  have one : ∀ (v : Verbosity) (a : Str), (eprint v a >>= fun _ => MM.pure 1 : MM Nat) s = (.ok 1, s.sayAll v [a]) := by
    intro v a
    rw [mm_bind, eprint_eq]
    rfl
  have two : ∀ (v : Verbosity) (a b : Str), (eprint v a >>= fun _ => eprint v b >>= fun _ => MM.pure 1 : MM Nat) s =
      (.ok 1, s.sayAll v [a, b]) := by
    intro v a b
    simp only [mm_bind, eprint_eq, mm_pure]
    unfold MState.sayAll MState.say
    split <;> simp
  unfold main
  simp only []
  by_cases hu : UnknownArch args
  · rw [if_pos ((unknown_iff args).2 hu), if_neg (fun x => hh ((help_iff args).1 x))]
    exact ⟨_, by simp, by simp, two _ _ _⟩
  · rw [if_neg (fun x => hu ((unknown_iff args).1 x))]
    by_cases h1 : (!given args.kdir && !given args.vmlinux) = true
    · rw [if_pos h1]
      exact ⟨_, by simp, by simp, two _ _ _⟩
    · rw [if_neg h1]
      by_cases h2 : (!given args.kdir && (given args.checkout || args.config || args.build)) = true
      · rw [if_pos h2]
        exact ⟨_, by simp, by simp, one _ _⟩
      · rw [if_neg h2, given_lower]
        by_cases h3 : (!given args.arch && (args.config || args.build)) = true
        · rw [if_pos h3]
          exact ⟨_, by simp, by simp, two _ _ _⟩
        · exfalso
          simp only [Bool.and_eq_true, Bool.not_eq_true', Bool.or_eq_true, ← Bool.not_eq_true, given_iff] at h1 h2 h3
          cases h with
          | arch h => exact hu h
          | nothing a b => exact h1 ⟨a, b⟩
          | noKdir a b => exact h2 ⟨a, by rcases b with b | b | b <;> simp [b]⟩
          | noArch a b => exact h3 ⟨a, b⟩

theorem main_valid (w : MWorld) (help : Str) (args : Args) (h : ¬ Invalid args) :
    main w help args = mainRun w (setupLogging args.quiet args.verbose) args (args.arch.map lower) := by
  unfold main
  simp only []
  rw [if_neg (fun x => h (.arch ((unknown_iff args).1 x))), if_neg, if_neg, if_neg]
  · rw [given_lower]
    intro x
    simp only [Bool.and_eq_true, Bool.not_eq_true', Bool.or_eq_true, ← Bool.not_eq_true, given_iff] at x
    exact h (.noArch x.1 x.2)
  · intro x
    simp only [Bool.and_eq_true, Bool.not_eq_true', Bool.or_eq_true, ← Bool.not_eq_true, given_iff] at x
    exact h (.noKdir x.1 (by rcases x.2 with (b | b) | b <;> simp [b]))
  · intro x
    simp only [Bool.and_eq_true, Bool.not_eq_true', ← Bool.not_eq_true, given_iff] at x
    exact h (.nothing x.1 x.2)

/-! ## After the checks -/

/-- an explicit `--checkout REF` -/
def ExplicitRef (args : Args) (ref : Str) : Prop := args.checkout = some ref ∧ ref ≠ [] ∧ ref ≠ cs!"auto"

/-- the part after the explicit checkout -/
def mainTail (w : MWorld) (v : Verbosity) (args : Args) (n : Option Str) : MM Nat :=
  if args.clean || args.config || args.build then mainBuild w v args n else mainAnalyze w v args n

theorem build_iff (args : Args) : (args.clean || args.config || args.build) = true ↔ BuildMode args := by
  unfold BuildMode
  cases args.clean <;> cases args.config <;> cases args.build <;> simp

theorem tail_build (w : MWorld) (v : Verbosity) (args : Args) (n : Option Str) (h : BuildMode args) :
    mainTail w v args n = mainBuild w v args n := if_pos ((build_iff args).2 h)

theorem tail_analyze (w : MWorld) (v : Verbosity) (args : Args) (n : Option Str) (h : ¬ BuildMode args) :
    mainTail w v args n = mainAnalyze w v args n := if_neg (fun x => h ((build_iff args).1 x))

theorem explicit_iff (args : Args) : (given args.checkout && decide (args.checkout ≠ some cs!"auto")) = true ↔ ∃ ref, ExplicitRef args ref := by
  rw [Bool.and_eq_true, given_iff, decide_eq_true_iff]
  unfold Given ExplicitRef
  constructor
  · rintro ⟨⟨r, h1, h2⟩, h3⟩
    exact ⟨r, h1, h2, fun h => h3 (by rw [h1, h])⟩
  · rintro ⟨r, h1, h2, h3⟩
    exact ⟨⟨r, h1, h2⟩, fun h => h3 (by rw [h1] at h; injection h)⟩

theorem run_none (w : MWorld) (v : Verbosity) (args : Args) (n : Option Str) (s : MState) (h : ¬ ∃ ref, ExplicitRef args ref) :
    mainRun w v args n s = mainTail w v args n s := by
  unfold mainRun
  rw [if_neg (fun x => h ((explicit_iff args).1 x))]
  rfl

/-- with an explicit checkout: the command, then the rest if it succeeded -/
theorem run_explicit (w : MWorld) (v : Verbosity) (args : Args) (n : Option Str) (s : MState) (ref : Str) (h : ExplicitRef args ref) :
    ∃ (r : Run) (s1 : MState), r.argv = [cs!"git", cs!"checkout", ref] ∧ r.cwd = pathOf args.kdir ∧ s1.b.hist = s.b.hist ++ [r] ∧
      s1.dirs = s.dirs ∧ s1.out = s.out ∧
      (mainRun w v args n s = mainTail w v args n s1 ∨ ∃ e, mainRun w v args n s = (.error e, s1)) := by
  have hr : args.checkout.getD [] = ref := by rw [h.1]; rfl
  unfold mainRun
  rw [if_pos ((explicit_iff args).2 ⟨ref, h⟩), mm_bind, eprint_eq, hr]
  simp only []
  rw [mm_bind]
  generalize hs : s.say v (cs!"Checking out to " ++ ref) = s0
  have e1 : s0.b = s.b := by rw [← hs, say_b]
  have e2 : s0.dirs = s.dirs := by rw [← hs, say_dirs]
  have e3 : s0.out = s.out := by rw [← hs, say_out]
  obtain ⟨r, h1, h2, h3, h4, h5, -⟩ := gitCheckout_spec w (pathOf args.kdir) ref s0
  refine ⟨r, (gitCheckout w (pathOf args.kdir) ref s0).2, h1, h2, by rw [h3, e1], by rw [h4, e2], by rw [h5, e3], ?_⟩
  cases hg : gitCheckout w (pathOf args.kdir) ref s0 with
  | mk res s1 =>
    cases res with
    | error e => exact Or.inr ⟨e, rfl⟩
    | ok u => exact Or.inl rfl

end Verif
