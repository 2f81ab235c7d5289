import Verif.Lemmas.Configure
/-! # Lemmas: a command only runs when all before it succeeded -/
set_option autoImplicit false

namespace Verif
open Spec

/-- Every command but the last succeeded, and so did the last one if the action succeeds. -/
def Careful {α : Type} (w : World) (m : BM α) : Prop :=
  ∀ s : BState, ∃ R, (m s).2.hist = s.hist ++ R ∧ ∀ pre r post, R = pre ++ r :: post →
    (post ≠ [] ∨ ∃ x, (m s).1 = .ok x) → w.status (s.hist ++ pre) r = some 0

theorem Careful.quiet {α : Type} {w : World} {m : BM α} (h : ∀ s, (m s).2.hist = s.hist) : Careful w m := by
  intro s
  exact ⟨[], by simp [h s], by intro pre r post e; simp at e⟩

theorem Careful.bind {α β : Type} {w : World} {m : BM α} {f : α → BM β} (hm : Careful w m) (hf : ∀ x, Careful w (f x)) :
    Careful w (m >>= f) := by
  intro s
  obtain ⟨R, h1, h2⟩ := hm s
  rw [bm_bind]
  cases he : m s with
  | mk res s' =>
    rw [he] at h1 h2
    cases res with
    | error e =>
      refine ⟨R, h1, ?_⟩
      intro pre r post e hp
      refine h2 pre r post e ?_
      rcases hp with hp | ⟨x, hx⟩
      · exact Or.inl hp
      · cases hx
    | ok x =>
      obtain ⟨S, g1, g2⟩ := hf x s'
      refine ⟨R ++ S, by simp only [g1]; rw [h1, List.append_assoc], ?_⟩
      intro pre r post e hp
      rcases List.append_eq_append_iff.1 e with ⟨c, h6, h7⟩ | ⟨c, h6, h7⟩
      · have := g2 c r post h7 hp
        rw [h6, ← List.append_assoc, ← h1]
        exact this
      · cases c with
        | nil =>
          have := g2 [] r post h7.symm hp
          rw [h1, List.append_nil] at this
          simpa [h6] using this
        | cons y ys =>
          simp only [List.cons_append, List.cons.injEq] at h7
          exact h2 pre r ys (by rw [h6, h7.1]) (Or.inr ⟨x, rfl⟩)

theorem careful_pure {α : Type} {w : World} (x : α) : Careful w (BM.pure x) := .quiet fun _ => rfl
theorem careful_pure' {α : Type} {w : World} (x : α) : Careful w (pure x : BM α) := .quiet fun _ => rfl
theorem careful_raise {α : Type} {w : World} (e : Exc) : Careful w (BM.raise e : BM α) := .quiet fun _ => rfl
theorem careful_lift {α : Type} {w : World} (r : Res α) : Careful w (BM.lift r) := .quiet fun _ => rfl
theorem careful_get {w : World} : Careful w BM.get := .quiet fun _ => rfl

theorem careful_ensure (w : World) (argv : List Str) (cwd : Path) (input : Option Str) :
    Careful w (ensureCommand w argv (some cwd) input) := by
  intro s
  rw [ensureCommand_eq]
  refine ⟨[s.runOf argv (some cwd) input], rfl, ?_⟩
  intro pre r post e hp
  cases pre with
  | cons y ys => simp at e
  | nil =>
    simp only [List.nil_append, List.cons.injEq] at e
    obtain ⟨rfl, rfl⟩ := e
    rcases hp with hp | ⟨x, hx⟩
    · exact absurd rfl hp
    · simp only at hx
      rw [List.append_nil]
      split at hx
      · cases hx
      · split at hx
        · rename_i hen
          unfold ensured at hen
          split at hen
          · cases hen
          · assumption
          · cases hen
        · cases hx

theorem careful_make (w : World) (b : Builder) (t : Str) (input : Option Str) : Careful w (make w b t input) :=
  (careful_ensure w _ _ _).bind fun _ => careful_pure _

theorem careful_version (w : World) (b : Builder) : Careful w (getVersion w b) := by
  unfold getVersion
  refine careful_get.bind fun s => ?_
  split
  · exact careful_pure _
  · refine (careful_ensure w _ _ _).bind fun out => ?_
    split
    · exact careful_raise _
    · exact Careful.bind (.quiet fun _ => rfl) fun _ => careful_pure _

theorem careful_sync (w : World) (b : Builder) : Careful w (syncConfig w b) := by
  unfold syncConfig
  refine (careful_version w b).bind fun v => ?_
  split
  · exact careful_make w b _ _
  · exact careful_make w b _ _

theorem careful_performK (w : World) (b : Builder) (es : List KEvent) : Careful w (performK w b es) := by
  induction es with
  | nil => exact careful_pure _
  | cons e es ih =>
    cases e with
    | script as => exact (careful_ensure w _ _ _).bind fun _ => ih
    | warn _ _ => exact ih
    | error _ _ => exact ih

theorem careful_performAll (w : World) (b : Builder) (p : List KEvent × Res Unit) : Careful w (performAll w b p) :=
  (careful_performK w b p.1).bind fun _ => careful_lift _

theorem careful_check (w : World) (b : Builder) (o : Dict Str (List Str)) : Careful w (applyOptionsCheck w b o) := by
  unfold applyOptionsCheck
  split
  · exact careful_pure _
  · refine careful_get.bind fun s => ?_
    split
    · exact careful_raise _
    · exact careful_performAll w b _

theorem careful_forM (w : World) (b : Builder) (ts : List Str) : Careful w (ts.forM fun t => make w b t none) := by
  induction ts with
  | nil => exact careful_pure' _
  | cons t ts ih => exact (careful_make w b t none).bind fun _ => ih

theorem configure_careful' (w : World) (b : Builder) : Careful w (configure w b) := by
  unfold configure
  refine Careful.bind (.quiet fun _ => rfl) fun _ => ?_
  refine (careful_forM w b _).bind fun _ => ?_
  refine (careful_version w b).bind fun v => ?_
  refine Careful.bind (careful_performAll w b _) fun _ => ?_
  refine (careful_sync w b).bind fun _ => ?_
  refine (careful_version w b).bind fun v => ?_
  refine Careful.bind (careful_performAll w b _) fun _ => ?_
  refine (careful_sync w b).bind fun _ => ?_
  refine (careful_version w b).bind fun v => ?_
  refine (careful_check w b _).bind fun _ => ?_
  refine (careful_sync w b).bind fun _ => ?_
  refine (careful_version w b).bind fun v => ?_
  exact (careful_check w b _).bind fun _ => careful_sync w b

theorem configure_careful (w : World) (b : Builder) (s : BState) :
    ∃ R, (configure w b s).2.hist = s.hist ++ R ∧ ∀ pre r post, R = pre ++ r :: post →
      (post ≠ [] ∨ (configure w b s).1 = .ok ()) → w.status (s.hist ++ pre) r = some 0 := by
  obtain ⟨R, h1, h2⟩ := configure_careful' w b s
  refine ⟨R, h1, ?_⟩
  intro pre r post e hp
  refine h2 pre r post e ?_
  rcases hp with hp | hp
  · exact Or.inl hp
  · exact Or.inr ⟨(), hp⟩

/-! ## Input -/

/-- a remembered version is at least 3.7 -/
def Recent (s : BState) : Prop := ∀ v, s.version = some v → [3, 7] ≤ v

/-- no command is given input -/
def NoInput {α : Type} (m : BM α) : Prop :=
  ∀ s : BState, Recent s → ∃ R, (m s).2.hist = s.hist ++ R ∧ (∀ r ∈ R, r.input = none) ∧ Recent (m s).2

theorem NoInput.quiet {α : Type} {m : BM α} (h : ∀ s, (m s).2.hist = s.hist ∧ (Recent s → Recent (m s).2)) : NoInput m := by
  intro s hs
  exact ⟨[], by simp [(h s).1], by simp, (h s).2 hs⟩

theorem NoInput.same {α : Type} {m : BM α} (h : ∀ s, (m s).2 = s) : NoInput m :=
  .quiet fun s => by rw [h s]; exact ⟨rfl, id⟩

theorem NoInput.bind {α β : Type} {m : BM α} {f : α → BM β} (hm : NoInput m) (hf : ∀ x, NoInput (f x)) : NoInput (m >>= f) := by
  intro s hs
  obtain ⟨R, h1, h2, h3⟩ := hm s hs
  rw [bm_bind]
  cases he : m s with
  | mk res s' =>
    rw [he] at h1 h3
    cases res with
    | error e => exact ⟨R, h1, h2, h3⟩
    | ok x =>
      obtain ⟨S, g1, g2, g3⟩ := hf x s' h3
      refine ⟨R ++ S, by simp only [g1]; rw [h1, List.append_assoc], ?_, g3⟩
      intro r hr
      rcases List.mem_append.1 hr with hr | hr
      · exact h2 r hr
      · exact g2 r hr

theorem noInput_ensure (w : World) (argv : List Str) (cwd : Path) : NoInput (ensureCommand w argv (some cwd) none) := by
  intro s hs
  rw [ensureCommand_eq]
  refine ⟨[s.runOf argv (some cwd) none], rfl, ?_, hs⟩
  intro r hr
  simp only [List.mem_singleton] at hr
  subst hr
  rfl

theorem noInput_make (w : World) (b : Builder) (t : Str) : NoInput (make w b t none) :=
  (noInput_ensure w _ _).bind fun _ => .same fun _ => rfl

section
variable (w : World) (b : Builder)
  (hv : ∀ h r v, r.argv = [cs!"make", cs!"kernelversion"] → versionFromStr (w.output h r) = some v → [3, 7] ≤ v)
include hv

/-- the version obtained is recent -/
theorem getVersion_recent (s : BState) (hs : Recent s) :
    ∃ R, (getVersion w b s).2.hist = s.hist ++ R ∧ (∀ r ∈ R, r.input = none) ∧ Recent (getVersion w b s).2 ∧
      ∀ v, (getVersion w b s).1 = .ok v → [3, 7] ≤ v := by
  cases h : s.version with
  | some v =>
    rw [getVersion_cached w b s v h]
    exact ⟨[], by simp, by simp, hs, by intro v' e; cases e; exact hs v h⟩
  | none =>
    rcases getVersion_fresh w b s h with ⟨e, he⟩ | ⟨v, h1, he⟩
    · rw [he]
      refine ⟨[_], rfl, ?_, ?_, by simp⟩
      · intro r hr; simp only [List.mem_singleton] at hr; subst hr; rfl
      · exact hs
    · have hge := hv _ _ v (show (s.runOf kvArgv (some b.kdir) none).argv = _ from rfl) h1
      rw [he]
      refine ⟨[_], rfl, ?_, ?_, ?_⟩
      · intro r hr; simp only [List.mem_singleton] at hr; subst hr; rfl
      · intro v' e; cases e; exact hge
      · intro v' e; cases e; exact hge

theorem noInput_version : NoInput (getVersion w b) := by
  intro s hs
  obtain ⟨R, h1, h2, h3, -⟩ := getVersion_recent w b hv s hs
  exact ⟨R, h1, h2, h3⟩

theorem noInput_sync : NoInput (syncConfig w b) := by
  intro s hs
  obtain ⟨R, h1, h2, h3, h4⟩ := getVersion_recent w b hv s hs
  unfold syncConfig
  rw [bm_bind]
  cases he : getVersion w b s with
  | mk res s' =>
    rw [he] at h1 h3 h4
    cases res with
    | error e => exact ⟨R, h1, h2, h3⟩
    | ok v =>
      have hge : verGe v [3, 7] = true := (verLe_iff _ _).2 (h4 v rfl)
      simp only [hge, if_true]
      obtain ⟨S, g1, g2, g3⟩ := noInput_make w b cs!"olddefconfig" s' h3
      refine ⟨R ++ S, by rw [g1, h1, List.append_assoc], ?_, g3⟩
      intro r hr
      rcases List.mem_append.1 hr with hr | hr
      · exact h2 r hr
      · exact g2 r hr
end

theorem noInput_performK (w : World) (b : Builder) (es : List KEvent) : NoInput (performK w b es) := by
  induction es with
  | nil => exact .same fun _ => rfl
  | cons e es ih =>
    cases e with
    | script as => exact (noInput_ensure w _ _).bind fun _ => ih
    | warn _ _ => exact ih
    | error _ _ => exact ih

theorem noInput_performAll (w : World) (b : Builder) (p : List KEvent × Res Unit) : NoInput (performAll w b p) :=
  (noInput_performK w b p.1).bind fun _ => .same fun _ => rfl

theorem noInput_check (w : World) (b : Builder) (o : Dict Str (List Str)) : NoInput (applyOptionsCheck w b o) := by
  unfold applyOptionsCheck
  split
  · exact .same fun _ => rfl
  · refine NoInput.bind (.same fun _ => rfl) fun s => ?_
    split
    · exact .same fun _ => rfl
    · exact noInput_performAll w b _

theorem noInput_forM (w : World) (b : Builder) (ts : List Str) : NoInput (ts.forM fun t => make w b t none) := by
  induction ts with
  | nil => exact .same fun _ => rfl
  | cons t ts ih => exact (noInput_make w b t).bind fun _ => ih

theorem configure_noInput (w : World) (b : Builder) (s : BState)
    (hv : ∀ h r v, r.argv = [cs!"make", cs!"kernelversion"] → versionFromStr (w.output h r) = some v → [3, 7] ≤ v) :
    ∃ R, (configure w b s).2.hist = s.hist ++ R ∧ ∀ r ∈ R, r.input = none := by
  have hn : NoInput ((b.arch.configTargets.forM fun t => make w b t none) >>= fun _ => getVersion w b >>= configureRest w b) := by
    refine (noInput_forM w b _).bind fun _ => (noInput_version w b hv).bind fun v => ?_
    unfold configureRest
    refine NoInput.bind (noInput_performAll w b _) fun _ => ?_
    refine (noInput_sync w b hv).bind fun _ => ?_
    refine (noInput_version w b hv).bind fun v => ?_
    refine NoInput.bind (noInput_performAll w b _) fun _ => ?_
    refine (noInput_sync w b hv).bind fun _ => ?_
    refine (noInput_version w b hv).bind fun v => ?_
    refine (noInput_check w b _).bind fun _ => ?_
    refine (noInput_sync w b hv).bind fun _ => ?_
    refine (noInput_version w b hv).bind fun v => ?_
    exact (noInput_check w b _).bind fun _ => noInput_sync w b hv
  rw [configure_unfold]
  obtain ⟨R, h1, h2, -⟩ := hn { s with version := none } (by intro v h; cases h)
  exact ⟨R, h1, h2⟩

end Verif
