import Verif.Spec.Failures
import Verif.Lemmas.Main4
/-! # Lemmas: failures of commands are heeded (C95) -/
set_option autoImplicit false

namespace Verif
open Spec

theorem heeded_nil (w : World) (Att : Run → Prop) {α : Type} (h : List Run) (res : Res α) : Heeded w Att h [] res := by
  intro A r B e
  exact absurd e (by simp)

theorem heeded_append (w : World) (Att : Run → Prop) {α β : Type} (h R1 R2 : List Run) (x : α) (res : Res β)
    (h1 : Heeded w Att h R1 (.ok x)) (h2 : Heeded w Att (h ++ R1) R2 res) : Heeded w Att h (R1 ++ R2) res := by
  intro A r B e hf
  rcases List.append_eq_append_iff.mp e with ⟨A', hA, hR⟩ | ⟨C, hR, hC⟩
  · have := h2 A' r B hR (by rw [List.append_assoc, ← hA]; exact hf)
    rw [hA]
    simpa only [List.append_assoc] using this
  · cases C with
    | nil =>
      simp only [List.append_nil] at hR
      simp only [List.nil_append] at hC
      have := h2 [] r B hC.symm (by rw [List.append_nil, hR]; exact hf)
      rw [List.append_nil, hR] at this
      exact this
    | cons c C =>
      simp only [List.cons_append, List.cons.injEq] at hC
      obtain ⟨rfl, rfl⟩ := hC
      rcases h1 A r C hR hf with ⟨_, e, he, _⟩ | ⟨ha, hb⟩
      · cases he
      · refine .inr ⟨ha, fun _ _ => ?_⟩
        obtain ⟨B1, r', B2, g1, g2, g3, g4⟩ := hb x rfl
        exact ⟨B1, r', B2 ++ R2, by rw [g1]; simp, g2, g3, g4⟩

theorem heeded_error (w : World) (Att : Run → Prop) {α β : Type} (h R : List Run) (e : Exc) (h1 : Heeded w Att h R (.error e : Res α)) :
    Heeded w Att h R (.error e : Res β) := by
  intro A r B hR hf
  rcases h1 A r B hR hf with ⟨g1, e', g2, g3⟩ | ⟨g1, _⟩
  · cases g2; exact .inl ⟨g1, e, rfl, g3⟩
  · exact .inr ⟨g1, fun x hx => by cases hx⟩

/-- an action that ignores no failure -/
def Heeds (w : World) (Att : Run → Prop) {α : Type} (m : BM α) : Prop :=
  ∀ s, ∃ R, (m s).2.hist = s.hist ++ R ∧ Heeded w Att s.hist R (m s).1

def HeedsM (w : World) (Att : Run → Prop) {α : Type} (m : MM α) : Prop :=
  ∀ s, ∃ R, (m s).2.b.hist = s.b.hist ++ R ∧ Heeded w Att s.b.hist R (m s).1

section
variable {w : World} {Att : Run → Prop} {α β : Type}

theorem heeds_quiet {m : BM α} (h : ∀ s, (m s).2.hist = s.hist) : Heeds w Att m :=
  fun s => ⟨[], by simp [h s], heeded_nil _ _ _ _⟩

theorem heeds_pure (x : α) : Heeds w Att (BM.pure x) := heeds_quiet fun _ => rfl
theorem heeds_raise (e : Exc) : Heeds w Att (BM.raise e : BM α) := heeds_quiet fun _ => rfl
theorem heeds_lift (r : Res α) : Heeds w Att (BM.lift r) := heeds_quiet fun _ => rfl
theorem heeds_get : Heeds w Att BM.get := heeds_quiet fun _ => rfl
theorem heeds_modify (f : BState → BState) (h : ∀ s, (f s).hist = s.hist) : Heeds w Att (BM.modify f) := heeds_quiet h
theorem heeds_tick (p : Point) : Heeds w Att (tick w p) := by
  unfold tick
  split
  · exact heeds_raise _
  · exact heeds_pure _

theorem heeds_bind {m : BM α} {f : α → BM β} (hm : Heeds w Att m) (hf : ∀ x, Heeds w Att (f x)) : Heeds w Att (m >>= f) := by
  intro s
  obtain ⟨R1, h1, g1⟩ := hm s
  show ∃ R, (BM.bind m f s).2.hist = _ ∧ Heeded _ _ _ _ (BM.bind m f s).1
  unfold BM.bind
  split
  · next x s1 hx =>
    rw [hx] at h1 g1
    obtain ⟨R2, h2, g2⟩ := hf x s1
    simp only at h1
    rw [h1] at h2 g2
    exact ⟨R1 ++ R2, by rw [h2, List.append_assoc], heeded_append _ _ _ _ _ x _ g1 g2⟩
  · next e s1 hx =>
    rw [hx] at h1 g1
    exact ⟨R1, h1, heeded_error _ _ _ _ _ g1⟩

theorem heedsM_quiet {m : MM α} (h : ∀ s, (m s).2.b.hist = s.b.hist) : HeedsM w Att m :=
  fun s => ⟨[], by simp [h s], heeded_nil _ _ _ _⟩

theorem heedsM_pure (x : α) : HeedsM w Att (MM.pure x) := heedsM_quiet fun _ => rfl
theorem heedsM_raise (e : Exc) : HeedsM w Att (MM.raise e : MM α) := heedsM_quiet fun _ => rfl
theorem heedsM_lift (r : Res α) : HeedsM w Att (MM.lift r) := heedsM_quiet fun _ => rfl
theorem heedsM_get : HeedsM w Att MM.get := heedsM_quiet fun _ => rfl
theorem heedsM_modify (f : MState → MState) (h : ∀ s, (f s).b = s.b) : HeedsM w Att (MM.modify f) :=
  heedsM_quiet fun s => by show (f s).b.hist = _; rw [h]

theorem heedsM_ofB {m : BM α} (h : Heeds w Att m) : HeedsM w Att (MM.ofB m) := fun s => h s.b

theorem heedsM_bind {m : MM α} {f : α → MM β} (hm : HeedsM w Att m) (hf : ∀ x, HeedsM w Att (f x)) : HeedsM w Att (m >>= f) := by
  intro s
  obtain ⟨R1, h1, g1⟩ := hm s
  show ∃ R, (MM.bind m f s).2.b.hist = _ ∧ Heeded _ _ _ _ (MM.bind m f s).1
  unfold MM.bind
  split
  · next x s1 hx =>
    rw [hx] at h1 g1
    obtain ⟨R2, h2, g2⟩ := hf x s1
    simp only at h1
    rw [h1] at h2 g2
    exact ⟨R1 ++ R2, by rw [h2, List.append_assoc], heeded_append _ _ _ _ _ x _ g1 g2⟩
  · next e s1 hx =>
    rw [hx] at h1 g1
    exact ⟨R1, h1, heeded_error _ _ _ _ _ g1⟩

theorem heeds_imp {Att' : Run → Prop} {m : BM α} (hi : ∀ r, Att r → Att' r) (h : Heeds w Att m) : Heeds w Att' m := by
  intro s
  obtain ⟨R, h1, h2⟩ := h s
  refine ⟨R, h1, fun A r B e hf => ?_⟩
  rcases h2 A r B e hf with g | ⟨g1, g2⟩
  · exact .inl g
  · exact .inr ⟨hi r g1, g2⟩

end

theorem singleton_split {α : Type} {x r : α} {A B : List α} (h : [x] = A ++ r :: B) : A = [] ∧ r = x ∧ B = [] := by
  cases A with
  | nil => simp at h; exact ⟨rfl, h.1.symm, h.2⟩
  | cons a A => simp at h

/-- a single command that must succeed -/
theorem heeds_ensure (w : World) (Att : Run → Prop) (argv : List Str) (cwd : Option Path) (input : Option Str) :
    Heeds w Att (ensureCommand w argv cwd input) := by
  intro s
  unfold ensureCommand
  simp only [bm_bind, exec_eq]
  refine ⟨[s.runOf argv cwd input], ?_, ?_⟩
  · by_cases hi : w.interrupt = some (.run s.hist.length)
    · rw [if_pos hi]; rfl
    · rw [if_neg hi]
      simp only
      cases w.status s.hist (s.runOf argv cwd input) with
      | none => cases cwd <;> rfl
      | some st => cases st <;> rfl
  · intro A r B hR hf
    obtain ⟨rfl, rfl, rfl⟩ := singleton_split hR
    rw [List.append_nil] at hf ⊢
    refine .inl ⟨rfl, ?_⟩
    by_cases hi : w.interrupt = some (.run s.hist.length)
    · rw [if_pos hi]
      exact ⟨_, rfl, .inl ⟨by rw [hi]; simp, rfl⟩⟩
    · rw [if_neg hi]
      simp only
      cases hst : w.status s.hist (s.runOf argv cwd input) with
      | none => cases cwd <;> exact ⟨_, rfl, .inr rfl⟩
      | some st =>
        cases st with
        | zero => exact absurd hst hf
        | succ n => exact ⟨_, rfl, .inr rfl⟩

section
variable {w : World} {Att : Run → Prop} {α β : Type}

/-- an action that ignores no failure and, when it succeeds, has run the command successfully -/
def Achieves (w : World) (Att : Run → Prop) (argv : List Str) (cwd : Option Path) (m : BM α) : Prop :=
  ∀ s, ∃ R, (m s).2.hist = s.hist ++ R ∧ Heeded w Att s.hist R (m s).1 ∧
    ∀ x, (m s).1 = .ok x → ∃ B1 r' B2, R = B1 ++ r' :: B2 ∧ r'.argv = argv ∧ r'.cwd = cwd ∧ w.status (s.hist ++ B1) r' = some 0

theorem achieves_heeds {argv : List Str} {cwd : Option Path} {m : BM α} (h : Achieves w Att argv cwd m) : Heeds w Att m := by
  intro s
  obtain ⟨R, h1, h2, _⟩ := h s
  exact ⟨R, h1, h2⟩

theorem achieves_bind {argv : List Str} {cwd : Option Path} {m : BM α} {f : α → BM β} (hm : Heeds w Att m)
    (hf : ∀ x, Achieves w Att argv cwd (f x)) : Achieves w Att argv cwd (m >>= f) := by
  intro s
  obtain ⟨R1, h1, g1⟩ := hm s
  show ∃ R, (BM.bind m f s).2.hist = _ ∧ Heeded _ _ _ _ (BM.bind m f s).1 ∧ ∀ x, (BM.bind m f s).1 = .ok x → _
  unfold BM.bind
  split
  · next x s1 hx =>
    rw [hx] at h1 g1
    obtain ⟨R2, h2, g2, k2⟩ := hf x s1
    simp only at h1
    rw [h1] at h2 g2 k2
    refine ⟨R1 ++ R2, by rw [h2, List.append_assoc], heeded_append _ _ _ _ _ x _ g1 g2, ?_⟩
    intro y hy
    obtain ⟨B1, r', B2, e1, e2, e3, e4⟩ := k2 y hy
    exact ⟨R1 ++ B1, r', B2, by rw [e1, List.append_assoc], e2, e3, by rw [← List.append_assoc]; exact e4⟩
  · next e s1 hx =>
    rw [hx] at h1 g1
    exact ⟨R1, h1, heeded_error _ _ _ _ _ g1, fun x hx => by cases hx⟩

end

theorem achieves_make (w : World) (Att : Run → Prop) (b : Builder) (t : Str) (input : Option Str) :
    Achieves w Att (makeArgv w b t) (some b.kdir) (make w b t input) := by
  intro s
  have hh : Heeds w Att (make w b t input) := heeds_bind (heeds_ensure _ _ _ _ _) fun _ => heeds_pure _
  obtain ⟨R, h1, h2⟩ := hh s
  have hR : R = [s.runOf (makeArgv w b t) (some b.kdir) input] := by
    rw [make_eq] at h1
    exact (List.append_cancel_left h1).symm
  refine ⟨R, h1, h2, ?_⟩
  intro x hx
  refine ⟨[], _, [], hR, rfl, rfl, ?_⟩
  rw [make_eq] at hx
  simp only at hx
  split at hx
  · cases hx
  · rw [List.append_nil]
    cases hst : w.status s.hist (s.runOf (makeArgv w b t) (some b.kdir) input) with
    | none => rw [hst] at hx; cases hx
    | some n =>
      rw [hst] at hx
      cases n with
      | zero => rfl
      | succ n => cases hx

/-- an attempt, after which the command is run again if it failed -/
theorem achieves_attempt (w : World) {α : Type} (b : Builder) (f : Nat → BM α) (h0 : Heeds w BuildsImage (f 0))
    (hn : ∀ n, n ≠ 0 → Achieves w BuildsImage (makeArgv w b cs!"vmlinux") (some b.kdir) (f n)) :
    Achieves w BuildsImage (makeArgv w b cs!"vmlinux") (some b.kdir) (tryMake w b cs!"vmlinux" >>= f) := by
  intro s
  simp only [bm_bind, tryMake_eq]
  by_cases hi : w.interrupt = some (.run s.hist.length)
  · rw [if_pos hi]
    refine ⟨[s.runOf (makeArgv w b cs!"vmlinux") (some b.kdir) none], rfl, ?_, fun x hx => by cases hx⟩
    intro A r B hR hf
    obtain ⟨rfl, rfl, rfl⟩ := singleton_split hR
    exact .inl ⟨rfl, _, rfl, .inl ⟨by rw [hi]; simp, rfl⟩⟩
  · rw [if_neg hi]
    simp only
    generalize hr : s.runOf (makeArgv w b cs!"vmlinux") (some b.kdir) none = r
    have hargv : r.argv = makeArgv w b cs!"vmlinux" := by rw [← hr]; rfl
    have hcwd : r.cwd = some b.kdir := by rw [← hr]; rfl
    have hatt : BuildsImage r := by
      constructor
      · rw [hargv]; rfl
      · rw [hargv]; exact List.getLast?_concat
    by_cases hst : w.status s.hist r = some 0
    · rw [hst]
      obtain ⟨R, h1, h2⟩ := h0 (s.push r)
      have h1' : (f 0 (s.push r)).2.hist = s.hist ++ (r :: R) := by rw [h1]; simp [BState.push]
      refine ⟨r :: R, h1', ?_, fun x hx => ⟨[], r, R, rfl, hargv, hcwd, by simpa using hst⟩⟩
      have : Heeded w BuildsImage s.hist [r] (.ok () : Res Unit) := by
        intro A r0 B hR hf
        obtain ⟨rfl, rfl, rfl⟩ := singleton_split hR
        exact absurd (by simpa using hst) hf
      exact heeded_append w BuildsImage s.hist [r] R () _ this h2
    · have hne : (w.status s.hist r).getD 127 ≠ 0 := by
        cases h : w.status s.hist r with
        | none => simp
        | some n => rw [h] at hst; simpa using hst
      obtain ⟨R, h1, h2, h3⟩ := hn _ hne (s.push r)
      have h1' : (f ((w.status s.hist r).getD 127) (s.push r)).2.hist = s.hist ++ (r :: R) := by rw [h1]; simp [BState.push]
      have hpush : (s.push r).hist = s.hist ++ [r] := rfl
      refine ⟨r :: R, h1', ?_, ?_⟩
      · intro A r0 B hR hf
        cases A with
        | nil =>
          simp only [List.nil_append, List.cons.injEq] at hR
          obtain ⟨rfl, rfl⟩ := hR
          refine .inr ⟨hatt, fun x hx => ?_⟩
          obtain ⟨B1, r', B2, e1, e2, e3, e4⟩ := h3 x hx
          refine ⟨B1, r', B2, e1, by rw [e2, hargv], by rw [e3, hcwd], ?_⟩
          rw [hpush] at e4
          simpa using e4
        | cons a A =>
          simp only [List.cons_append, List.cons.injEq] at hR
          obtain ⟨rfl, rfl⟩ := hR
          have := h2 A r0 B rfl (by rw [hpush]; simpa using hf)
          rw [hpush] at this
          simpa using this
      · intro x hx
        obtain ⟨B1, r', B2, e1, e2, e3, e4⟩ := h3 x hx
        rw [hpush] at e4
        exact ⟨r :: B1, r', B2, by rw [e1]; rfl, e2, e3, by simpa using e4⟩

section
variable (w : World) (Att : Run → Prop) (b : Builder)

theorem heeds_make (t : Str) (input : Option Str) : Heeds w Att (make w b t input) := achieves_heeds (achieves_make w Att b t input)

theorem heeds_getVersion : Heeds w Att (getVersion w b) := by
  unfold getVersion
  refine heeds_bind heeds_get fun s => ?_
  split
  · exact heeds_pure _
  · refine heeds_bind (heeds_ensure _ _ _ _ _) fun out => ?_
    split
    · exact heeds_raise _
    · exact heeds_bind (heeds_modify _ fun _ => rfl) fun _ => heeds_pure _

theorem heeds_sync : Heeds w Att (syncConfig w b) := by
  unfold syncConfig
  refine heeds_bind (heeds_getVersion w Att b) fun v => ?_
  split
  · exact heeds_make w Att b _ _
  · exact heeds_make w Att b _ _

theorem heeds_clean : Heeds w Att (clean w b) := heeds_bind (heeds_modify _ fun _ => rfl) fun _ => heeds_make w Att b _ _

theorem heeds_performK (es : List KEvent) : Heeds w Att (performK w b es) := by
  induction es with
  | nil => exact heeds_pure _
  | cons e es ih =>
    cases e <;> simp only [performK]
    all_goals first | exact ih | exact heeds_bind (heeds_ensure _ _ _ _ _) fun _ => ih

theorem heeds_performAll (p : List KEvent × Res Unit) : Heeds w Att (performAll w b p) :=
  heeds_bind (heeds_performK w Att b _) fun _ => heeds_lift _

theorem heeds_check (o : Dict Str (List Str)) : Heeds w Att (applyOptionsCheck w b o) := by
  unfold applyOptionsCheck
  split
  · exact heeds_pure _
  · refine heeds_bind heeds_get fun s => ?_
    split
    · exact heeds_raise _
    · exact heeds_performAll w Att b _

theorem heeds_forM (l : List Str) (f : Str → BM Unit) (h : ∀ x, Heeds w Att (f x)) : Heeds w Att (l.forM f) := by
  induction l with
  | nil => exact heeds_pure _
  | cons x l ih => exact heeds_bind (h x) fun _ => ih

theorem heeds_configure : Heeds w Att (configure w b) := by
  unfold configure
  refine heeds_bind (heeds_modify _ fun _ => rfl) fun _ => ?_
  refine heeds_bind (heeds_forM w Att _ _ fun t => heeds_make w Att b _ _) fun _ => ?_
  refine heeds_bind (heeds_getVersion w Att b) fun _ => ?_
  refine heeds_bind (heeds_performAll w Att b _) fun _ => ?_
  refine heeds_bind (heeds_sync w Att b) fun _ => ?_
  refine heeds_bind (heeds_getVersion w Att b) fun _ => ?_
  refine heeds_bind (heeds_performAll w Att b _) fun _ => ?_
  refine heeds_bind (heeds_sync w Att b) fun _ => ?_
  refine heeds_bind (heeds_getVersion w Att b) fun _ => ?_
  refine heeds_bind (heeds_check w Att b _) fun _ => ?_
  refine heeds_bind (heeds_sync w Att b) fun _ => ?_
  refine heeds_bind (heeds_getVersion w Att b) fun _ => ?_
  refine heeds_bind (heeds_check w Att b _) fun _ => ?_
  exact heeds_sync w Att b

theorem heeds_trySet (lvl : Nat) : Heeds w Att (trySetOptLevel w lvl) := by
  unfold trySetOptLevel
  refine heeds_bind heeds_get fun s => ?_
  refine heeds_bind (heeds_modify _ fun _ => rfl) fun _ => ?_
  split
  · exact heeds_pure _
  · exact heeds_bind (heeds_modify _ fun _ => rfl) fun _ => heeds_bind (heeds_tick _) fun _ => heeds_pure _

theorem heeds_restore (lvl : Nat) : Heeds w Att (restoreMakefile w lvl) := by
  unfold restoreMakefile
  refine heeds_bind heeds_get fun s => ?_
  simp only
  split
  · exact heeds_bind (heeds_modify _ fun _ => rfl) fun _ => heeds_bind (heeds_tick _) fun _ =>
      heeds_bind (heeds_modify _ fun _ => rfl) fun _ => heeds_modify _ fun _ => rfl
  · exact heeds_bind (heeds_pure _) fun _ => heeds_modify _ fun _ => rfl

/-- a build ends well only after a successful `make vmlinux`; its only tolerated failures are attempts at it, with the flag -/
theorem achieves_build (opt : Bool) :
    Achieves w (fun r => opt = true ∧ BuildsImage r) (makeArgv w b cs!"vmlinux") (some b.kdir) (build w b opt) := by
  unfold build
  refine achieves_bind (heeds_modify _ fun _ => rfl) fun _ => ?_
  cases opt with
  | false => exact achieves_make w _ b _ _
  | true =>
    simp only [true_and, if_true]
    refine achieves_bind (heeds_trySet w _ 0) fun p => ?_
    split
    · refine achieves_bind (heeds_modify _ fun _ => rfl) fun _ => ?_
      refine achieves_attempt w b _ ?_ ?_
      · refine heeds_bind (heeds_restore w _ 0) fun _ => ?_
        exact heeds_pure _
      · intro n hn
        refine achieves_bind (heeds_restore w _ 0) fun _ => ?_
        rw [if_neg hn]
        refine achieves_bind (heeds_trySet w _ 1) fun _ => ?_
        refine achieves_attempt w b _ ?_ ?_
        · refine heeds_bind (heeds_restore w _ 1) fun _ => ?_
          exact heeds_pure _
        · intro n hn
          refine achieves_bind (heeds_restore w _ 1) fun _ => ?_
          rw [if_neg hn]
          exact achieves_make w _ b _ _
    · exact achieves_make w _ b _ _

end

section
variable (w : MWorld) (Att : Run → Prop)

theorem heedsM_eprint (v : Verbosity) (msg : Str) : HeedsM w.toWorld Att (eprint v msg) := by
  unfold eprint
  split
  · exact heedsM_pure _
  · exact heedsM_modify _ fun _ => rfl

theorem heedsM_eprints (v : Verbosity) (ls : List Str) : HeedsM w.toWorld Att (eprints v ls) := by
  induction ls with
  | nil => exact heedsM_pure _
  | cons l ls ih => exact heedsM_bind (heedsM_eprint w Att v l) fun _ => ih

theorem initMessages_ends (prog : Str) (n : Option Str) (d : Option (Kind × Bool × List Str)) (st : Option Nat) (cwd : Option Path)
    (e : Exc) (h : EndsFor w.toWorld st cwd e) : initMessages prog n d e = none := by
  have : ∀ m, initMessages prog n d (.exit m) = none := fun m => by simp [initMessages]
  have ha : initMessages prog n d .attr = none := by simp [initMessages]
  rcases h with ⟨_, rfl⟩ | h
  · exact this 1
  · split at h
    · subst h; exact this 1
    · subst h; exact this 127
    · subst h; exact ha

theorem heedsM_catch {α : Type} (v : Verbosity) (n : Option Str) (d : Option (Kind × Bool × List Str)) (m : MM α)
    (h : HeedsM w.toWorld Att m) : HeedsM w.toWorld Att (catchInit w v n d m) := by
  intro s
  obtain ⟨R, h1, h2⟩ := h s
  unfold catchInit
  split
  · next x s1 hx => rw [hx] at h1 h2; exact ⟨R, h1, h2⟩
  · next e s1 hx =>
    rw [hx] at h1 h2
    split
    · exact ⟨R, h1, h2⟩
    · next ls hls =>
      refine ⟨R, ?_, ?_⟩
      · rw [← h1, mm_bind, eprints_eq]
        simp only [mm_raise]
        unfold MState.sayAll
        split <;> rfl
      · intro A r B hR hf
        rcases h2 A r B hR hf with ⟨_, e', he, hE⟩ | ⟨ha, _⟩
        · cases he
          rw [initMessages_ends w w.prog n d _ _ _ hE] at hls
          cases hls
        · refine .inr ⟨ha, fun x hx => ?_⟩
          rw [mm_bind, eprints_eq] at hx
          cases hx

theorem heedsM_gcc (cmd : Str) : HeedsM w.toWorld Att (gccVersion w cmd) := by
  unfold gccVersion
  refine heedsM_bind (heedsM_ofB (heeds_ensure _ _ _ _ _)) fun out => ?_
  split
  · exact heedsM_raise _
  · exact heedsM_pure _

theorem heedsM_git (kdir : Option Path) (ref : Str) : HeedsM w.toWorld Att (gitCheckout w kdir ref) :=
  heedsM_bind (heedsM_ofB (heeds_ensure _ _ _ _ _)) fun _ => heedsM_pure _

theorem heedsM_newBuilder (n : Option Str) (kdir outdir : Option Path) (cross : Str) :
    HeedsM w.toWorld Att (newBuilder w n kdir outdir cross) := by
  unfold newBuilder
  split
  · exact heedsM_raise _
  · exact heedsM_raise _
  · refine heedsM_bind (heedsM_ofB ?_) fun v => ?_
    · unfold firstVersion
      refine heeds_bind (heeds_ensure _ _ _ _ _) fun out => ?_
      split
      · exact heeds_raise _
      · exact heeds_bind (heeds_modify _ fun _ => rfl) fun _ => heeds_pure _
    · refine heedsM_bind heedsM_get fun s => ?_
      refine heedsM_bind (heedsM_lift _) fun p => ?_
      exact heedsM_bind (heedsM_modify _ fun _ => rfl) fun _ => heedsM_pure _

theorem heedsM_load (p : Path) : HeedsM w.toWorld Att (loadElf w p) := by
  unfold loadElf
  refine heedsM_bind heedsM_get fun s => ?_
  split
  · exact heedsM_raise _
  · refine heedsM_bind (heedsM_lift _) fun h => ?_
    refine heedsM_bind (heedsM_ofB (heeds_ensure _ _ _ _ _)) fun out => ?_
    split
    · exact heedsM_raise _
    · exact heedsM_bind (heedsM_ofB (heeds_ensure _ _ _ _ _)) fun _ => heedsM_lift _

theorem heedsM_analysis (n : Option Str) (p : Path) (kdir : Option Path) : HeedsM w.toWorld Att (newAnalysis w n p kdir) :=
  heedsM_bind (heedsM_load w Att p) fun _ => heedsM_bind (heedsM_lift _) fun _ => heedsM_bind (heedsM_lift _) fun _ => heedsM_pure _

theorem heedsM_report (v : Verbosity) (args : Args) (k : Analysis) (p : Path) : HeedsM w.toWorld Att (mainReport w v args k p) := by
  unfold mainReport
  refine heedsM_bind heedsM_get fun s => ?_
  refine heedsM_bind (heedsM_lift _) fun scs => ?_
  split
  · exact heedsM_pure _
  · refine heedsM_bind (heedsM_lift _) fun scs => ?_
    refine heedsM_bind (heedsM_eprints w Att _ _) fun _ => ?_
    refine heedsM_bind (heedsM_lift _) fun t => ?_
    exact heedsM_bind (heedsM_modify _ fun _ => rfl) fun _ => heedsM_pure _

theorem heedsM_analyze (v : Verbosity) (args : Args) (n : Option Str) : HeedsM w.toWorld Att (mainAnalyze w v args n) := by
  unfold mainAnalyze
  simp only
  split
  · exact heedsM_bind (heedsM_eprint w Att _ _) fun _ => heedsM_pure _
  · split
    · exact heedsM_raise _
    · refine heedsM_bind heedsM_get fun s => ?_
      split
      · exact heedsM_bind (heedsM_eprint w Att _ _) fun _ => heedsM_bind (heedsM_eprint w Att _ _) fun _ => heedsM_pure _
      · split
        · exact heedsM_bind (heedsM_eprint w Att _ _) fun _ => heedsM_pure _
        · refine heedsM_bind (heedsM_catch w Att _ _ _ _ (heedsM_analysis w Att _ _ _)) fun k => ?_
          refine heedsM_bind (heedsM_eprint w Att _ _) fun _ => ?_
          refine heedsM_bind ?_ fun _ => heedsM_report w Att _ _ _ _
          unfold autoCheckout
          split
          · exact heedsM_bind (heedsM_lift _) fun _ => heedsM_bind (heedsM_eprint w Att _ _) fun _ => heedsM_git w Att _ _
          · exact heedsM_pure _

theorem heedsM_mainBuild (v : Verbosity) (args : Args) (n : Option Str) :
    HeedsM w.toWorld (fun r => args.build = true ∧ args.disableOpt = true ∧ BuildsImage r) (mainBuild w v args n) := by
  unfold mainBuild
  refine heedsM_bind heedsM_get fun s => ?_
  simp only []
  split
  · exact heedsM_bind (heedsM_eprint w _ _ _) fun _ => heedsM_pure _
  · exact heedsM_bind (heedsM_eprint w _ _ _) fun _ => heedsM_pure _
  · refine heedsM_bind (heedsM_modify _ fun _ => rfl) fun _ => ?_
    split
    · exact heedsM_bind (heedsM_eprint w _ _ _) fun _ => heedsM_bind (heedsM_eprint w _ _ _) fun _ => heedsM_pure _
    · have rest : HeedsM w.toWorld (fun r => args.build = true ∧ args.disableOpt = true ∧ BuildsImage r) (do
          let b ← catchInit w v n none (newBuilder w n (pathOf args.kdir) (pathOf args.out) (args.cross.getD []))
          if args.build || args.config then do
            eprint v cs!"Cleaning kernel sources"
            MM.ofB (clean w.toWorld b)
            let ver ← MM.ofB (getVersion w.toWorld b)
            eprint v (cs!"Detected kernel version: " ++ versionStr ver cs!"make")
            eprint v cs!"Configuring kernel"
            MM.ofB (configure w.toWorld b)
            if args.build then do
              eprint v cs!"Building kernel (might take a while)"
              MM.ofB (build w.toWorld b args.disableOpt)
            else eprint v cs!"Done"
          else do
            eprint v cs!"Cleaning kernel sources"
            MM.ofB (clean w.toWorld b)
            eprint v cs!"Done"
          MM.pure 0 : MM Nat) := by
        refine heedsM_bind (heedsM_catch w _ _ _ _ _ (heedsM_newBuilder w _ _ _ _ _)) fun b => ?_
        split
        · refine heedsM_bind (heedsM_eprint w _ _ _) fun _ => ?_
          refine heedsM_bind (heedsM_ofB (heeds_clean _ _ _)) fun _ => ?_
          refine heedsM_bind (heedsM_ofB (heeds_getVersion _ _ _)) fun _ => ?_
          refine heedsM_bind (heedsM_eprint w _ _ _) fun _ => ?_
          refine heedsM_bind (heedsM_eprint w _ _ _) fun _ => ?_
          refine heedsM_bind (heedsM_ofB (heeds_configure _ _ _)) fun _ => ?_
          split
          · next hb =>
            refine heedsM_bind (heedsM_eprint w _ _ _) fun _ => ?_
            refine heedsM_bind (heedsM_ofB ?_) fun _ => heedsM_pure _
            exact heeds_imp (fun r hr => ⟨hb, hr⟩) (achieves_heeds (achieves_build _ _ _))
          · exact heedsM_bind (heedsM_eprint w _ _ _) fun _ => heedsM_pure _
        · refine heedsM_bind (heedsM_eprint w _ _ _) fun _ => ?_
          refine heedsM_bind (heedsM_ofB (heeds_clean _ _ _)) fun _ => ?_
          exact heedsM_bind (heedsM_eprint w _ _ _) fun _ => heedsM_pure _
      split
      · exact heedsM_bind (heedsM_gcc w _ _) fun _ => heedsM_bind (heedsM_eprint w _ _ _) fun _ => rest
      · exact heedsM_bind (heedsM_pure _) fun _ => rest

theorem heedsM_main (help : Str) (args : Args) :
    HeedsM w.toWorld (fun r => args.build = true ∧ args.disableOpt = true ∧ BuildsImage r) (main w help args) := by
  unfold main
  simp only
  split
  · split
    · exact heedsM_bind (heedsM_eprint w _ _ _) fun _ => heedsM_pure _
    · exact heedsM_bind (heedsM_eprint w _ _ _) fun _ => heedsM_bind (heedsM_eprint w _ _ _) fun _ => heedsM_pure _
  split
  · exact heedsM_bind (heedsM_eprint w _ _ _) fun _ => heedsM_bind (heedsM_eprint w _ _ _) fun _ => heedsM_pure _
  split
  · exact heedsM_bind (heedsM_eprint w _ _ _) fun _ => heedsM_pure _
  split
  · exact heedsM_bind (heedsM_eprint w _ _ _) fun _ => heedsM_bind (heedsM_eprint w _ _ _) fun _ => heedsM_pure _
  unfold mainRun
  have tail : HeedsM w.toWorld (fun r => args.build = true ∧ args.disableOpt = true ∧ BuildsImage r)
      (if args.clean || args.config || args.build then mainBuild w (setupLogging args.quiet args.verbose) args (args.arch.map lower)
        else mainAnalyze w (setupLogging args.quiet args.verbose) args (args.arch.map lower)) := by
    split
    · exact heedsM_mainBuild w _ _ _
    · exact heedsM_analyze w _ _ _ _
  by_cases hx : (given args.checkout && decide (args.checkout ≠ some cs!"auto")) = true
  · rw [if_pos hx]
    exact heedsM_bind (heedsM_eprint w _ _ _) fun _ => heedsM_bind (heedsM_git w _ _ _) fun _ => tail
  · rw [if_neg hx]
    exact heedsM_bind (heedsM_pure _) fun _ => tail

end

/-! ## a build that ends well ends with a built image -/

/-- the last command was a successful `make vmlinux` -/
def BuiltLast (w : World) (hist : List Run) : Prop := ∃ A r, hist = A ++ [r] ∧ BuildsImage r ∧ w.status A r = some 0

def EndsBuilt (w : World) {α : Type} (m : BM α) : Prop := ∀ s x s', m s = (.ok x, s') → BuiltLast w s'.hist

def EndsBuiltM (w : World) (m : MM Nat) : Prop := ∀ s s', m s = (.ok 0, s') → BuiltLast w s'.b.hist

theorem endsBuilt_bind {w : World} {α β : Type} {m : BM α} {f : α → BM β} (hf : ∀ x, EndsBuilt w (f x)) : EndsBuilt w (m >>= f) := by
  intro s y s' h
  change BM.bind m f s = _ at h
  unfold BM.bind at h
  split at h
  · exact hf _ _ _ _ h
  · cases h

theorem endsBuiltM_bind {w : World} {α : Type} {m : MM α} {f : α → MM Nat} (hf : ∀ x, EndsBuiltM w (f x)) : EndsBuiltM w (m >>= f) := by
  intro s s' h
  change MM.bind m f s = _ at h
  unfold MM.bind at h
  split at h
  · exact hf _ _ _ h
  · cases h

theorem endsBuiltM_pure (w : World) (n : Nat) (h : n ≠ 0) : EndsBuiltM w (MM.pure n) := by
  intro s s' e
  simp only [MM.pure, Prod.mk.injEq, Except.ok.injEq] at e
  exact absurd e.1 h

theorem buildsImage_make (w : World) (b : Builder) (s : BState) (cwd : Option Path) (input : Option Str) :
    BuildsImage (s.runOf (makeArgv w b cs!"vmlinux") cwd input) := ⟨rfl, List.getLast?_concat⟩

theorem endsBuilt_make (w : World) (b : Builder) (input : Option Str) : EndsBuilt w (make w b cs!"vmlinux" input) := by
  intro s x s' h
  rw [make_eq, Prod.mk.injEq] at h
  obtain ⟨h1, rfl⟩ := h
  refine ⟨s.hist, _, rfl, buildsImage_make w b s _ _, ?_⟩
  split at h1
  · cases h1
  · cases hst : w.status s.hist (s.runOf (makeArgv w b cs!"vmlinux") (some b.kdir) input) with
    | none => rw [hst] at h1; cases h1
    | some n =>
      rw [hst] at h1
      cases n with
      | zero => rfl
      | succ n => cases h1

theorem endsBuilt_attempt {α : Type} (w : World) (b : Builder) (f : Nat → BM α)
    (h0 : ∀ s x s', f 0 s = (.ok x, s') → s'.hist = s.hist) (hn : ∀ n, n ≠ 0 → EndsBuilt w (f n)) :
    EndsBuilt w (tryMake w b cs!"vmlinux" >>= f) := by
  intro s x s' h
  change BM.bind _ f s = _ at h
  unfold BM.bind at h
  split at h
  · next n s1 hx =>
    rw [tryMake_eq, Prod.mk.injEq] at hx
    obtain ⟨h1, rfl⟩ := hx
    by_cases hz : n = 0
    · subst hz
      rw [h0 _ _ _ h]
      refine ⟨s.hist, _, rfl, buildsImage_make w b s _ _, ?_⟩
      split at h1
      · cases h1
      · cases hst : w.status s.hist (s.runOf (makeArgv w b cs!"vmlinux") (some b.kdir) none) with
        | none => rw [hst] at h1; cases h1
        | some n => rw [hst] at h1; cases h1; rfl
    · exact hn n hz _ _ _ h
  · cases h

theorem restore_hist (w : World) (lvl : Nat) (s : BState) : (restoreMakefile w lvl s).2.hist = s.hist := by
  unfold restoreMakefile
  simp only [bm_bind, bm_get]
  rcases s.backup with _ | _ | ⟨c, cs⟩
  · rfl
  · rfl
  · simp only [bm_bind, bm_modify, tick]
    by_cases h : w.interrupt = some (Point.restoring lvl)
    · simp only [if_pos h]; rfl
    · simp only [if_neg h]; rfl

theorem endsBuilt_build (w : World) (b : Builder) (opt : Bool) : EndsBuilt w (build w b opt) := by
  unfold build
  refine endsBuilt_bind fun _ => ?_
  have keep : ∀ lvl, ∀ s x s', ((do restoreMakefile w lvl; BM.pure ()) : BM Unit) s = (.ok x, s') → s'.hist = s.hist := by
    intro lvl s x s' h
    have := restore_hist w lvl s
    simp only [bm_bind] at h
    split at h
    · next hx => rw [hx] at this; cases h; exact this
    · cases h
  split
  · refine endsBuilt_bind fun p => ?_
    split
    · refine endsBuilt_bind fun _ => ?_
      refine endsBuilt_attempt w b _ ?_ ?_
      · exact keep 0
      · intro n hn
        refine endsBuilt_bind fun _ => ?_
        rw [if_neg hn]
        refine endsBuilt_bind fun _ => ?_
        refine endsBuilt_attempt w b _ ?_ ?_
        · exact keep 1
        · intro n hn
          refine endsBuilt_bind fun _ => ?_
          rw [if_neg hn]
          exact endsBuilt_make w b _
    · exact endsBuilt_make w b _
  · exact endsBuilt_make w b _

theorem endsBuiltM_mainBuild (w : MWorld) (v : Verbosity) (args : Args) (n : Option Str) (hb : args.build = true) :
    EndsBuiltM w.toWorld (mainBuild w v args n) := by
  unfold mainBuild
  refine endsBuiltM_bind fun s => ?_
  simp only []
  split
  · exact endsBuiltM_bind fun _ => endsBuiltM_pure _ _ (by decide)
  · exact endsBuiltM_bind fun _ => endsBuiltM_pure _ _ (by decide)
  · refine endsBuiltM_bind fun _ => ?_
    split
    · exact endsBuiltM_bind fun _ => endsBuiltM_bind fun _ => endsBuiltM_pure _ _ (by decide)
    · simp only [hb, Bool.or_true, Bool.true_or, if_true]
      refine endsBuiltM_bind fun _ => endsBuiltM_bind fun _ => endsBuiltM_bind fun b => endsBuiltM_bind fun _ => endsBuiltM_bind fun _ =>
        endsBuiltM_bind fun _ => endsBuiltM_bind fun _ => endsBuiltM_bind fun _ => endsBuiltM_bind fun _ => endsBuiltM_bind fun _ => ?_
      intro s s' h
      change MM.bind _ _ s = _ at h
      unfold MM.bind MM.ofB at h
      split at h
      · next x s1 hx =>
        split at hx
        next r b' hb' =>
        cases hx
        cases h
        exact endsBuilt_build _ _ _ _ _ _ hb'
      · cases h

theorem endsBuiltM_main (w : MWorld) (help : Str) (args : Args) (hb : args.build = true) (hh : ¬ AsksForHelp args) :
    EndsBuiltM w.toWorld (main w help args) := by
  by_cases hi : Invalid args
  · intro s s' h
    obtain ⟨ls, _, _, h3⟩ := main_invalid w help args s hi hh
    rw [h3] at h
    cases h
  · rw [main_valid w help args hi]
    unfold mainRun
    simp only [hb, Bool.or_true, if_true]
    split
    · exact endsBuiltM_bind fun _ => endsBuiltM_bind fun _ => endsBuiltM_mainBuild w _ _ _ hb
    · exact endsBuiltM_bind fun _ => endsBuiltM_mainBuild w _ _ _ hb

end Verif
