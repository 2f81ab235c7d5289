import Verif.Lemmas.Stderr4
/-! # The lines of a build -/
set_option autoImplicit false
set_option maxRecDepth 8000

namespace Verif
open Spec

/-! ## Actions that write nothing when they succeed -/

/-- what every step of the configuration leaves as it is -/
structure Step (s s' : BState) : Prop where
  hist : s.hist <+: s'.hist
  makefile : s'.makefile = s.makefile
  version : ∀ v, s.version = some v → s'.version = some v

theorem Step.refl (s : BState) : Step s s := ⟨List.prefix_refl _, rfl, fun _ h => h⟩
theorem Step.trans {a b c : BState} (h : Step a b) (g : Step b c) : Step a c :=
  ⟨h.hist.trans g.hist, g.makefile.trans h.makefile, fun v hv => g.version v (h.version v hv)⟩

/-- a success writes nothing -/
def Silent {α : Type} (m : RB α) : Prop := ∀ s x s', (m s).2 = (.ok x, s') → (m s).1 = [] ∧ Step s s'

section
variable {α β : Type}
theorem si_pure (x : α) : Silent (RB.pure x) := fun s y s' h => by cases h; exact ⟨rfl, .refl s⟩
theorem si_bind {m : RB α} {f : α → RB β} (hm : Silent m) (hf : ∀ x, Silent (f x)) : Silent (m >>= f) := by
  intro s y s' h
  obtain ⟨x, s1, h1, h2⟩ := rb_bind_ok m f s y (congrArg Prod.fst h :)
  rw [h2] at h ⊢
  obtain ⟨g1, g2⟩ := hm s x s1 h1
  obtain ⟨g3, g4⟩ := hf x s1 y s' h
  exact ⟨by rw [g1, g3]; rfl, g2.trans g4⟩
end

section
variable (w : World) (t : Telling) (high : Bool) (b : Builder)

/-- a command that is run and succeeds -/
theorem ensureR_ok (cmd : CmdArg) (cwd : Option Path) (input : Option Str) (console : Bool) (s s' : BState) (x : Str)
    (h : (ensureCommandR w t cmd cwd input console s).2 = (.ok x, s')) :
    w.status s.hist ⟨cmd.words, cwd, input, false, s.makefile⟩ = some 0 ∧
    x = w.output s.hist ⟨cmd.words, cwd, input, false, s.makefile⟩ ∧
    s' = { s with hist := s.hist ++ [⟨cmd.words, cwd, input, false, s.makefile⟩] } := by
  unfold ensureCommandR at h
  obtain ⟨o, s1, h1, h2⟩ := rb_bind_ok _ _ _ _ (congrArg Prod.fst h :)
  rw [h2] at h
  obtain ⟨rfl, hs⟩ := execR_ok (congrArg Prod.fst h1 :)
  rw [h1] at hs
  have hs : s1 = _ := hs
  subst hs
  have he : (ensureTold t.printable cmd cwd (outcomeOf w t s.hist ⟨cmd.words, cwd, input, false, s.makefile⟩).2 console
      (outcomeOf w t s.hist ⟨cmd.words, cwd, input, false, s.makefile⟩).1).2 = .ok x := congrArg Prod.fst h
  refine ⟨?_, ?_, (congrArg Prod.snd h).symm⟩ <;> revert he <;>
    rcases ho : outcomeOf w t s.hist ⟨cmd.words, cwd, input, false, s.makefile⟩ with ⟨o, ex⟩ <;>
    unfold ensureTold doPopen <;> rcases o with _ | _ | _ | ⟨st, out, err⟩
  · rcases cwd with _ | p
    · simp
    · cases ex
      · simp
      · simp only [if_true]
        cases cmd.first <;> simp
  · simp
  · simp
  · obtain ⟨k, rfl, g, -⟩ := outcome_ended ho
    simp only
    split
    · intro h; cases h
    · next hk => intro _; rw [g]; simpa using hk
  · rcases cwd with _ | p
    · simp
    · cases ex
      · simp
      · simp only [if_true]
        cases cmd.first <;> simp
  · simp
  · simp
  · simp only
    split
    · intro h; cases h
    · intro h
      have hx : out = x := by injection h
      subst hx
      unfold outcomeOf at ho
      repeat' split at ho
      all_goals first | (cases ho; rfl) | cases ho

theorem si_ensure (cmd : CmdArg) (cwd : Option Path) (input : Option Str) (console : Bool) :
    Silent (ensureCommandR w t cmd cwd input console) := by
  intro s x s' h
  refine ⟨ensure_quiet w t cmd cwd input console s x (congrArg Prod.fst h :), ?_⟩
  obtain ⟨-, -, rfl⟩ := ensureR_ok w t _ _ _ _ _ _ _ h
  exact ⟨List.prefix_append _ _, rfl, fun _ h => h⟩

theorem si_make (target : Str) (input : Option Str) : Silent (makeR w t high b target input) :=
  si_bind (si_ensure w t _ _ _ _) fun _ => si_pure _

/-- `make kernelversion` -/
theorem askVersion_ok (kdir : Path) (s s' : BState) (v : Ver) (h : (askVersionR w t kdir s).2 = (.ok v, s')) :
    (askVersionR w t kdir s).1 = [] ∧ s.hist <+: s'.hist ∧ s'.makefile = s.makefile ∧ s'.version = some v ∧ PrintedBy w s'.hist v := by
  unfold askVersionR at h ⊢
  obtain ⟨out, s1, h1, h2⟩ := rb_bind_ok _ _ _ _ (congrArg Prod.fst h :)
  rw [h2] at h ⊢
  rw [ensure_quiet w t _ _ _ _ _ _ (congrArg Prod.fst h1 :)]
  obtain ⟨-, rfl, rfl⟩ := ensureR_ok w t _ _ _ _ _ _ _ h1
  have hw : (CmdArg.shell cs!"make kernelversion").words = [cs!"make", cs!"kernelversion"] := by decide
  rw [hw] at h ⊢
  rcases hv : versionFromStr (w.output s.hist ⟨[cs!"make", cs!"kernelversion"], some kdir, none, false, s.makefile⟩) with _ | v'
  · simp only [hv] at h
    cases congrArg Prod.fst h
  · simp only [hv] at h ⊢
    have e1 : v' = v := by injection (congrArg Prod.fst h :)
    have e2 := (congrArg Prod.snd h).symm
    subst e1
    change s' = _ at e2
    subst e2
    exact ⟨rfl, List.prefix_append _ _, rfl, rfl, _, _, List.prefix_refl _, rfl, hv⟩

/-- the version, and where it is from -/
theorem getVersion_ok (s s' : BState) (v : Ver) (h : (getVersionR w t b s).2 = (.ok v, s')) :
    (getVersionR w t b s).1 = [] ∧ Step s s' ∧ s'.version = some v ∧ (s.version = some v ∨ PrintedBy w s'.hist v) := by
  unfold getVersionR at h ⊢
  obtain ⟨a, s1, h1, h2⟩ := rb_bind_ok _ _ _ _ (congrArg Prod.fst h :)
  rw [h2] at h ⊢
  cases h1
  rcases hv : s.version with _ | u
  · simp only [hv] at h ⊢
    obtain ⟨g1, g2, g3, g4, g5⟩ := askVersion_ok w t _ _ _ _ h
    exact ⟨by rw [g1]; rfl, ⟨g2, g3, fun v h => by rw [hv] at h; cases h⟩, g4, .inr g5⟩
  · simp only [hv] at h ⊢
    cases h
    exact ⟨rfl, .refl _, hv, .inl rfl⟩

theorem si_getVersion : Silent (getVersionR w t b) := fun s v s' h => by
  obtain ⟨h1, h2, -, -⟩ := getVersion_ok w t b s s' v h
  exact ⟨h1, h2⟩

theorem si_sync : Silent (syncConfigR w t high b) := by
  unfold syncConfigR
  refine si_bind (si_getVersion w t b) fun v => ?_
  split <;> exact si_make w t high b _ _

theorem si_makeAll (ts : List Str) : Silent (makeAllR w t high b ts) := by
  induction ts with
  | nil => exact si_pure _
  | cons x xs ih => exact si_bind (si_make w t high b _ _) fun _ => ih

theorem makeAll_version (ts : List Str) (s s' : BState) (h : (makeAllR w t high b ts s).2 = (.ok (), s')) : s'.version = s.version := by
  induction ts generalizing s with
  | nil => cases h; rfl
  | cons x xs ih =>
    unfold makeAllR at h
    obtain ⟨_, s1, h1, e⟩ := rb_bind_ok _ _ _ _ (congrArg Prod.fst h :)
    rw [e] at h
    unfold makeR at h1
    obtain ⟨_, s2, h2, e⟩ := rb_bind_ok _ _ _ _ (congrArg Prod.fst h1 :)
    rw [e] at h1
    cases h1
    obtain ⟨-, -, rfl⟩ := ensureR_ok w t _ _ _ _ _ _ _ h2
    have := ih _ h
    exact this

theorem clean_quiet (s s' : BState) (h : (cleanR w t high b s).2 = (.ok (), s')) : (cleanR w t high b s).1 = [] := by
  unfold cleanR at h ⊢
  obtain ⟨a, s1, h1, h2⟩ := rb_bind_ok _ _ _ _ (congrArg Prod.fst h :)
  rw [h2] at h ⊢
  rw [(si_make w t high b _ _ _ _ _ h).1]
  rfl

/-- the messages among the steps -/
def logsOf (rs : List KRec) : List ErrEvent := rs.filterMap fun r => match r with | .log c => some c.event | .script _ => none

theorem performK_events (rs : List KRec) (s s' : BState) (h : (performKR w t b rs s).2 = (.ok (), s')) :
    (performKR w t b rs s).1 = logsOf rs ∧ Step s s' := by
  induction rs generalizing s with
  | nil => cases h; exact ⟨rfl, .refl _⟩
  | cons r rs ih =>
    cases r with
    | script args =>
      unfold performKR at h ⊢
      obtain ⟨x, s1, h1, h2⟩ := rb_bind_ok _ _ _ _ (congrArg Prod.fst h :)
      rw [h2] at h ⊢
      obtain ⟨g1, g2⟩ := si_ensure w t _ _ _ _ _ _ _ h1
      obtain ⟨g3, g4⟩ := ih _ h
      exact ⟨by rw [g1, g3]; rfl, g2.trans g4⟩
    | log c =>
      unfold performKR at h ⊢
      obtain ⟨x, s1, h1, h2⟩ := rb_bind_ok _ _ _ _ (congrArg Prod.fst h :)
      rw [h2] at h ⊢
      cases h1
      obtain ⟨g3, g4⟩ := ih _ h
      exact ⟨by rw [g3]; rfl, g4⟩

theorem performAll_events (p : List KRec × Res Unit) (s s' : BState) (h : (performAllR w t b p s).2 = (.ok (), s')) :
    (performAllR w t b p s).1 = logsOf p.1 ∧ Step s s' := by
  unfold performAllR at h ⊢
  obtain ⟨x, s1, h1, h2⟩ := rb_bind_ok _ _ _ _ (congrArg Prod.fst h :)
  rw [h2] at h ⊢
  obtain ⟨g1, g2⟩ := performK_events w t b _ _ _ h1
  have := (congrArg Prod.snd h :)
  subst this
  exact ⟨by rw [g1]; exact List.append_nil _, g2⟩

theorem si_apply (os : List Str) : Silent (applyOptionsR w t b os) := by
  intro s x s' h
  obtain ⟨g1, g2⟩ := performAll_events w t b _ _ _ h
  refine ⟨?_, g2⟩
  unfold applyOptionsR
  rw [g1]
  unfold editConfigL
  split
  · rfl
  · split <;> rfl

theorem check_events (os : Dict Str (List Str)) (s s' : BState) (h : (applyOptionsCheckR w t b os s).2 = (.ok (), s')) :
    (applyOptionsCheckR w t b os s).1 = optionsSaid w b s.makefile s.hist os ∧ Step s s' := by
  unfold applyOptionsCheckR at h ⊢
  split at h
  · next he =>
    rw [if_pos he]
    cases h
    refine ⟨?_, .refl _⟩
    unfold optionsSaid
    simp only
    split
    · rfl
    · unfold editConfigCheckDepsL
      rw [if_pos he]
      rfl
  · next he =>
    rw [if_neg he]
    obtain ⟨x, s1, h1, h2⟩ := rb_bind_ok _ _ _ _ (congrArg Prod.fst h :)
    rw [h2] at h ⊢
    cases h1
    unfold checkRecs at h ⊢
    unfold optionsSaid
    rcases hl : w.readLines s.hist (b.configFile.absolute w.cwd) with _ | lines
    · rw [hl] at h; cases congrArg Prod.fst h
    · rw [hl] at h
      simp only [Option.map_some] at h ⊢
      obtain ⟨g1, g2⟩ := performAll_events w t b _ _ _ h
      exact ⟨by rw [g1]; rfl, g2⟩

/-- kernel.py:658-681 for any tables -/
def configureWith (o1 o2 : Ver → List Str) (d1 d2 : Ver → Dict Str (List Str)) : RB Unit := do
  RB.quiet (BM.modify fun s => { s with version := none })
  makeAllR w t high b b.arch.configTargets
  let v ← getVersionR w t b
  applyOptionsR w t b (o1 v)
  syncConfigR w t high b
  let v ← getVersionR w t b
  applyOptionsR w t b (o2 v)
  syncConfigR w t high b
  let v ← getVersionR w t b
  applyOptionsCheckR w t b (d1 v)
  syncConfigR w t high b
  let v ← getVersionR w t b
  applyOptionsCheckR w t b (d2 v)
  syncConfigR w t high b

theorem configureWith_events (o1 o2 : Ver → List Str) (d1 d2 : Ver → Dict Str (List Str)) (s s' : BState)
    (h : (configureWith w t high b o1 o2 d1 d2 s).2 = (.ok (), s')) :
    (∃ v makefile h1 h2, PrintedBy w s'.hist v ∧ h1 <+: h2 ∧ h2 <+: s'.hist ∧
      (configureWith w t high b o1 o2 d1 d2 s).1 = optionsSaid w b makefile h1 (d1 v) ++ optionsSaid w b makefile h2 (d2 v)) ∧
    s.hist <+: s'.hist ∧ s'.makefile = s.makefile := by
  unfold configureWith at h ⊢
  obtain ⟨_, s1, h1, e⟩ := rb_bind_ok _ _ _ _ (congrArg Prod.fst h :)
  cases h1
  rw [e] at h ⊢
  obtain ⟨_, s2, h2, e⟩ := rb_bind_ok _ _ _ _ (congrArg Prod.fst h :)
  rw [e] at h ⊢
  obtain ⟨q2, p2⟩ := si_makeAll w t high b _ _ _ _ h2
  obtain ⟨v, s3, h3, e⟩ := rb_bind_ok _ _ _ _ (congrArg Prod.fst h :)
  rw [e] at h ⊢
  obtain ⟨q3, p3, v3, hv⟩ := getVersion_ok w t b _ _ _ h3
  obtain ⟨_, s4, h4, e⟩ := rb_bind_ok _ _ _ _ (congrArg Prod.fst h :)
  rw [e] at h ⊢
  obtain ⟨q4, p4⟩ := si_apply w t b _ _ _ _ h4
  obtain ⟨_, s5, h5, e⟩ := rb_bind_ok _ _ _ _ (congrArg Prod.fst h :)
  rw [e] at h ⊢
  obtain ⟨q5, p5⟩ := si_sync w t high b _ _ _ h5
  obtain ⟨v', s6, h6, e⟩ := rb_bind_ok _ _ _ _ (congrArg Prod.fst h :)
  rw [e] at h ⊢
  obtain ⟨q6, p6, v6, -⟩ := getVersion_ok w t b _ _ _ h6
  obtain ⟨_, s7, h7, e⟩ := rb_bind_ok _ _ _ _ (congrArg Prod.fst h :)
  rw [e] at h ⊢
  obtain ⟨q7, p7⟩ := si_apply w t b _ _ _ _ h7
  obtain ⟨_, s8, h8, e⟩ := rb_bind_ok _ _ _ _ (congrArg Prod.fst h :)
  rw [e] at h ⊢
  obtain ⟨q8, p8⟩ := si_sync w t high b _ _ _ h8
  obtain ⟨u2, s9, h9, e⟩ := rb_bind_ok _ _ _ _ (congrArg Prod.fst h :)
  rw [e] at h ⊢
  obtain ⟨q9, p9, v9, -⟩ := getVersion_ok w t b _ _ _ h9
  obtain ⟨_, s10, h10, e⟩ := rb_bind_ok _ _ _ _ (congrArg Prod.fst h :)
  rw [e] at h ⊢
  obtain ⟨q10, p10⟩ := check_events w t b _ _ _ h10
  obtain ⟨_, s11, h11, e⟩ := rb_bind_ok _ _ _ _ (congrArg Prod.fst h :)
  rw [e] at h ⊢
  obtain ⟨q11, p11⟩ := si_sync w t high b _ _ _ h11
  obtain ⟨u3, s12, h12, e⟩ := rb_bind_ok _ _ _ _ (congrArg Prod.fst h :)
  rw [e] at h ⊢
  obtain ⟨q12, p12, v12, -⟩ := getVersion_ok w t b _ _ _ h12
  obtain ⟨_, s13, h13, e⟩ := rb_bind_ok _ _ _ _ (congrArg Prod.fst h :)
  rw [e] at h ⊢
  obtain ⟨q13, p13⟩ := check_events w t b _ _ _ h13
  obtain ⟨q14, p14⟩ := si_sync w t high b _ _ _ h
  have p39 : Step s3 s9 := p4.trans (p5.trans (p6.trans (p7.trans (p8.trans p9))))
  have p912 : Step s9 s12 := p10.trans (p11.trans p12)
  have pend : Step s12 s' := p13.trans p14
  have e9 : v = u2 := by have := p39.version v v3; rw [v9] at this; injection this with this; exact this.symm
  have e12 : v = u3 := by have := (p39.trans p912).version v v3; rw [v12] at this; injection this with this; exact this.symm
  subst e9
  subst e12
  have hp : PrintedBy w s'.hist v := by
    have h0 : PrintedBy w s3.hist v := by
      rcases hv with hv | hv
      · rw [makeAll_version w t high b _ _ _ h2] at hv; cases hv
      · exact hv
    obtain ⟨pre, r, g1, g2, g3⟩ := h0
    exact ⟨pre, r, g1.trans (p39.trans (p912.trans pend)).hist, g2, g3⟩
  refine ⟨⟨v, s9.makefile, s9.hist, s12.hist, hp, p912.hist, pend.hist, ?_⟩, ?_, ?_⟩
  · simp only [q2, q3, q4, q5, q6, q7, q8, q9, q10, q11, q12, q13, q14, p912.makefile, List.nil_append, List.append_nil]
    rfl
  · exact (p2.trans (p3.trans (p39.trans (p912.trans pend)))).hist
  · exact (p2.trans (p3.trans (p39.trans (p912.trans pend)))).makefile

/-- kernel.py:658-681: the messages while configuring -/
theorem configure_events (s s' : BState) (h : (configureR w t high b s).2 = (.ok (), s')) :
    ConfigSaid w b s'.hist (configureR w t high b s).1 ∧ s.hist <+: s'.hist ∧ s'.makefile = s.makefile :=
  configureWith_events w t high b (fun v => ((VList.init kconfigDebuggingTable).getItem v).1)
    (fun v => ((VList.init kconfigCompatibilityTable).getItem v).1) (fun v => ((VDict.init kconfigMoreSyscallsTable).getItem v).1)
    (fun v => archKconfig b.store b.arch v) s s' h

end

/-! ## Building -/

section
variable (w : World) (t : Telling) (high : Bool) (b : Builder)

/-- `make` that may fail -/
theorem tryMake_ok (target : Str) (s s' : BState) (n : Nat) (h : (tryMakeR w t b target s).2 = (.ok n, s')) :
    s' = { s with hist := s.hist ++ [⟨makeArgv w b target, some b.kdir, none, false, s.makefile⟩] } ∧
    (n = 0 → w.status s.hist ⟨makeArgv w b target, some b.kdir, none, false, s.makefile⟩ = some 0 ∧ (tryMakeR w t b target s).1 = []) ∧
    (n ≠ 0 → TriedInVain w t s.hist ⟨makeArgv w b target, some b.kdir, none, false, s.makefile⟩ (tryMakeR w t b target s).1) := by
  have hw : (makeCmd w b target).words = makeArgv w b target := by
    show ((makeArgv w b target).map CmdWord.str).map CmdWord.word = _
    rw [List.map_map]
    exact List.map_id _
  have hfirst : (makeCmd w b target).first = .ok cs!"make" := rfl
  have hargv : ∃ rest, makeArgv w b target = cs!"make" :: rest := ⟨_, rfl⟩
  unfold tryMakeR runCommandR at h ⊢
  rw [hw] at h ⊢
  obtain ⟨o, s1, h1, h2⟩ := rb_bind_ok _ _ _ _ (congrArg Prod.fst h :)
  rw [h2] at h ⊢
  have he : (execR w t (makeArgv w b target) (some b.kdir) none s).1 = [] := execR_quiet w t _ _ _ _ (congrArg Prod.fst h1 :)
  obtain ⟨rfl, hs⟩ := execR_ok (congrArg Prod.fst h1 :)
  rw [h1] at hs
  have hs : s1 = _ := hs
  rw [he]
  generalize hr : (⟨makeArgv w b target, some b.kdir, none, false, s.makefile⟩ : Run) = r at h hs ⊢
  have hcwd : r.cwd = some b.kdir := by rw [← hr]
  have harg : ∃ rest, r.argv = cs!"make" :: rest := by rw [← hr]; exact hargv
  have hn : (runTold (makeCmd w b target) (some b.kdir) (outcomeOf w t s.hist r).2 (outcomeOf w t s.hist r).1).2.map Int.toNat = .ok n :=
    congrArg Prod.fst h
  have hs' : s' = s1 := (congrArg Prod.snd h).symm
  refine ⟨by rw [hs', hs], ?_⟩
  show (n = 0 → _ ∧ [] ++ (criticals (runTold (makeCmd w b target) (some b.kdir) (outcomeOf w t s.hist r).2 (outcomeOf w t s.hist r).1).1 ++ []) = []) ∧
    (n ≠ 0 → TriedInVain w t s.hist r
      ([] ++ (criticals (runTold (makeCmd w b target) (some b.kdir) (outcomeOf w t s.hist r).2 (outcomeOf w t s.hist r).1).1 ++ [])))
  rcases ho : outcomeOf w t s.hist r with ⟨o, ex⟩
  rw [ho] at hn
  unfold runTold doPopen at hn ⊢
  rw [List.nil_append, List.append_nil]
  rcases o with _ | _ | _ | ⟨st, out, err⟩
  · obtain ⟨g1, g2⟩ := outcome_notFound ho hcwd
    cases ex
    · simp only [Bool.false_eq_true, if_false] at hn g2 ⊢
      cases hn
      exact ⟨by simp, fun _ => .notStarted _ (.noDirectory _ hcwd g1 g2)⟩
    · simp only [if_true, hfirst] at hn g2 ⊢
      cases hn
      obtain ⟨rest, ha⟩ := harg
      exact ⟨by simp, fun _ => .notStarted _ (.noCommand _ rest ha g1 g2)⟩
  · obtain ⟨g1, g2, -⟩ := outcome_notDir ho
    simp only at hn ⊢
    cases hn
    exact ⟨by simp, fun _ => .notStarted _ (.notADirectory _ hcwd g1 g2)⟩
  · exact (outcome_denied ho).elim
  · obtain ⟨k, rfl, g, -⟩ := outcome_ended ho
    simp only at hn ⊢
    have hk : k = n := by injection hn
    subst hk
    exact ⟨fun h0 => ⟨by rw [g, h0], rfl⟩, fun h0 => .status k g h0⟩

theorem readText_ne {s : Str} (h : s ≠ []) : readText s ≠ [] := by
  cases s with
  | nil => exact absurd rfl h
  | cons c cs =>
    unfold readText
    split <;> simp_all

theorem trySet_ok (lvl : Nat) (s s' : BState) (p : Bool) (h : (trySetOptLevelR w lvl s).2 = (.ok p, s')) :
    (trySetOptLevelR w lvl s).1 = [] ∧ s'.hist = s.hist ∧ s'.backup = some (readText s.makefile) ∧
    ((findFlags true (readText s.makefile) = none ∧ p = false ∧ s'.makefile = s.makefile) ∨
      ∃ pre post, findFlags true (readText s.makefile) = some (pre, post) ∧ p = true ∧ s'.makefile = pre ++ natRepr lvl ++ post) := by
  unfold trySetOptLevelR at h ⊢
  obtain ⟨_, s1, h1, e⟩ := rb_bind_ok _ _ _ _ (congrArg Prod.fst h :)
  rw [e] at h ⊢
  cases h1
  simp only at h ⊢
  obtain ⟨_, s2, h2, e⟩ := rb_bind_ok _ _ _ _ (congrArg Prod.fst h :)
  rw [e] at h ⊢
  cases h2
  rcases hf : findFlags true (readText s.makefile) with _ | ⟨pre, post⟩
  · simp only [hf] at h ⊢
    cases h
    exact ⟨rfl, rfl, rfl, .inl (by simp)⟩
  · simp only [hf] at h ⊢
    obtain ⟨_, s3, h3, e⟩ := rb_bind_ok _ _ _ _ (congrArg Prod.fst h :)
    rw [e] at h ⊢
    cases h3
    obtain ⟨_, s4, h4, e⟩ := rb_bind_ok _ _ _ _ (congrArg Prod.fst h :)
    rw [e] at h ⊢
    cases h
    unfold tickR at h4 ⊢
    split at h4
    · cases congrArg Prod.fst h4
    · next hi =>
      rw [if_neg hi]
      cases h4
      exact ⟨rfl, rfl, rfl, .inr ⟨pre, post, rfl, rfl, rfl⟩⟩

theorem restore_ok (lvl : Nat) (s s' : BState) (data : Str) (hd : data ≠ []) (hb : s.backup = some data)
    (h : (restoreMakefileR w lvl s).2 = (.ok (), s')) :
    (restoreMakefileR w lvl s).1 = [] ∧ s'.hist = s.hist ∧ s'.makefile = data := by
  obtain ⟨c, cs, rfl⟩ := List.exists_cons_of_ne_nil hd
  unfold restoreMakefileR at h ⊢
  obtain ⟨_, s1, h1, e⟩ := rb_bind_ok _ _ _ _ (congrArg Prod.fst h :)
  rw [e] at h ⊢
  cases h1
  simp only [hb] at h ⊢
  obtain ⟨_, s2, h2, e⟩ := rb_bind_ok _ _ _ _ (congrArg Prod.fst h :)
  rw [e] at h ⊢
  cases h2
  obtain ⟨_, s3, h3, e⟩ := rb_bind_ok _ _ _ _ (congrArg Prod.fst h :)
  rw [e] at h ⊢
  unfold tickR at h3 ⊢
  split at h3
  · cases congrArg Prod.fst h3
  · next hi =>
    rw [if_neg hi]
    cases h3
    cases h
    exact ⟨rfl, rfl, rfl⟩

/-- the plain `make` -/
theorem makeR_ok (target : Str) (s s' : BState) (h : (makeR w t high b target none s).2 = (.ok (), s')) :
    (makeR w t high b target none s).1 = [] ∧
    s'.hist = s.hist ++ [⟨makeArgv w b target, some b.kdir, none, false, s.makefile⟩] ∧
    w.status s.hist ⟨makeArgv w b target, some b.kdir, none, false, s.makefile⟩ = some 0 ∧ s'.version = s.version := by
  have hq := (si_make w t high b target none s () s' h).1
  have hw : (makeCmd w b target).words = makeArgv w b target := by
    show ((makeArgv w b target).map CmdWord.str).map CmdWord.word = _
    rw [List.map_map]
    exact List.map_id _
  refine ⟨hq, ?_⟩
  unfold makeR at h
  obtain ⟨_, s1, h1, e⟩ := rb_bind_ok _ _ _ _ (congrArg Prod.fst h :)
  rw [e] at h
  cases h
  obtain ⟨g1, -, rfl⟩ := ensureR_ok w t _ _ _ _ _ _ _ h1
  rw [hw] at g1 ⊢
  exact ⟨rfl, g1, rfl⟩

/-- kernel.py:677-710: the messages while building -/
theorem build_events (o : Bool) (s s' : BState) (h : (buildR w t high b o s).2 = (.ok (), s')) :
    BuildSaid w t o s'.hist (buildR w t high b o s).1 ∧ s.hist <+: s'.hist := by
  unfold buildR at h ⊢
  obtain ⟨_, s1, h1, e⟩ := rb_bind_ok _ _ _ _ (congrArg Prod.fst h :)
  rw [e] at h ⊢
  cases h1
  cases o with
  | false =>
    simp only [Bool.false_eq_true, if_false] at h ⊢
    obtain ⟨g1, g2, -, -⟩ := makeR_ok w t high b _ _ _ h
    rw [g1, g2]
    exact ⟨.normal rfl, List.prefix_append _ _⟩
  | true =>
    simp only [if_true] at h ⊢
    obtain ⟨patched, s2, h2, e⟩ := rb_bind_ok _ _ _ _ (congrArg Prod.fst h :)
    rw [e] at h ⊢
    obtain ⟨q2, i2, b2, hp⟩ := trySet_ok w 0 _ _ _ h2
    rw [q2]
    simp only at i2 b2
    rcases hp with ⟨hf, rfl, m2⟩ | ⟨pre, post, hf, rfl, m2⟩
    · simp only [Bool.false_eq_true, if_false] at h ⊢
      obtain ⟨_, s3, h3, e⟩ := rb_bind_ok _ _ _ _ (congrArg Prod.fst h :)
      rw [e] at h ⊢
      cases h3
      obtain ⟨g1, g2, -, -⟩ := makeR_ok w t high b _ _ _ h
      rw [g1, g2, i2]
      refine ⟨.unpatched _ _ rfl rfl ?_, List.prefix_append _ _⟩
      show NoFlag (readText s2.makefile)
      rw [m2]
      exact findFlags_none hf
    · simp only [if_true] at h ⊢
      obtain ⟨a, mid, rfl, hff⟩ := findFlags_some hf
      have hne : readText s.makefile ≠ [] := by
        have h0 : readText s.makefile = a ++ mid ++ '2' :: post := hff.1.1
        rw [h0]; simp
      obtain ⟨_, s3, h3, e⟩ := rb_bind_ok _ _ _ _ (congrArg Prod.fst h :)
      rw [e] at h ⊢
      cases h3
      obtain ⟨n0, s4, h4, e⟩ := rb_bind_ok _ _ _ _ (congrArg Prod.fst h :)
      rw [e] at h ⊢
      obtain ⟨e4, z4, f4⟩ := tryMake_ok w t b _ _ _ _ h4
      generalize (tryMakeR w t b cs!"vmlinux" _).1 = ev0 at z4 f4 ⊢
      simp only at z4 f4
      rw [i2] at z4 f4
      obtain ⟨_, s5, h5, e⟩ := rb_bind_ok _ _ _ _ (congrArg Prod.fst h :)
      rw [e] at h ⊢
      obtain ⟨q5, i5, m5⟩ := restore_ok w 0 _ _ _ hne (by rw [e4]; exact b2) h5
      rw [q5]
      have hh4 : s4.hist = s.hist ++ [⟨makeArgv w b cs!"vmlinux", some b.kdir, none, false, s2.makefile⟩] := by rw [e4, ← i2]
      have hrel : Relevelled ⟨makeArgv w b cs!"vmlinux", some b.kdir, none, false, s2.makefile⟩ '0' :=
        ⟨_, a, mid, post, hff, by
          rw [m2, show natRepr 0 = ['0'] from by decide]
          simp⟩
      by_cases hn0 : n0 = 0
      · rw [if_pos hn0] at h ⊢
        obtain ⟨z1, z2⟩ := z4 hn0
        rw [z2]
        cases h
        rw [i5, hh4]
        exact ⟨.level0 s.hist _ rfl rfl hrel z1, List.prefix_append _ _⟩
      · rw [if_neg hn0] at h ⊢
        have f4 := f4 hn0
        obtain ⟨_, s6, h6, e⟩ := rb_bind_ok _ _ _ _ (congrArg Prod.fst h :)
        rw [e] at h ⊢
        cases h6
        obtain ⟨p1, s7, h7, e⟩ := rb_bind_ok _ _ _ _ (congrArg Prod.fst h :)
        rw [e] at h ⊢
        obtain ⟨q7, i7, b7, -⟩ := trySet_ok w 1 _ _ _ h7
        rw [q7]
        obtain ⟨n1, s8, h8, e⟩ := rb_bind_ok _ _ _ _ (congrArg Prod.fst h :)
        rw [e] at h ⊢
        obtain ⟨e8, z8, f8⟩ := tryMake_ok w t b _ _ _ _ h8
        generalize (tryMakeR w t b cs!"vmlinux" s7).1 = ev1 at z8 f8 ⊢
        obtain ⟨_, s9, h9, e⟩ := rb_bind_ok _ _ _ _ (congrArg Prod.fst h :)
        rw [e] at h ⊢
        obtain ⟨q9, i9, -⟩ := restore_ok w 1 s8 s9 (readText s5.makefile) (readText_ne (by rw [m5]; exact hne)) (by rw [e8]; exact b7) h9
        rw [q9]
        have hh7 : s7.hist = s.hist ++ [⟨makeArgv w b cs!"vmlinux", some b.kdir, none, false, s2.makefile⟩] := by rw [i7, i5, hh4]
        have hh8 : s8.hist = s.hist ++ [⟨makeArgv w b cs!"vmlinux", some b.kdir, none, false, s2.makefile⟩,
            ⟨makeArgv w b cs!"vmlinux", some b.kdir, none, false, s7.makefile⟩] := by
          rw [e8]
          show s7.hist ++ _ = _
          rw [hh7, List.append_assoc]
          rfl
        rw [hh7] at z8 f8
        by_cases hn1 : n1 = 0
        · rw [if_pos hn1] at h ⊢
          obtain ⟨z1, z2⟩ := z8 hn1
          rw [z2]
          cases h
          rw [i9, hh8]
          refine ⟨?_, List.prefix_append _ _⟩
          have := BuildSaid.level1 (w := w) (t := t) s.hist _ _ _ rfl rfl hrel f4 z1
          simpa [RB.tell, RB.pure, RB.quiet] using this
        · rw [if_neg hn1] at h ⊢
          obtain ⟨_, s10, h10, e⟩ := rb_bind_ok _ _ _ _ (congrArg Prod.fst h :)
          rw [e] at h ⊢
          cases h10
          obtain ⟨g1, g2, g3, -⟩ := makeR_ok w t high b _ _ _ h
          rw [g1, g2, i9, hh8]
          rw [i9, hh8] at g3
          refine ⟨?_, by rw [List.append_assoc]; exact List.prefix_append _ _⟩
          have := BuildSaid.stock (w := w) (t := t) s.hist _ _ _ _ _ rfl rfl hrel f4 (f8 hn1) g3
          simpa [RB.tell, RB.pure, RB.quiet] using this

end

section
variable (w : MWorld) (t : Telling) (v : Verbosity)

theorem ofB_ok {α : Type} (m : RB α) (s s' : MState) (x : α) (h : (RM.ofB m s).2 = (.ok x, s')) :
    (m s.b).2 = (.ok x, s'.b) ∧ (RM.ofB m s).1 = (m s.b).1 := by
  obtain ⟨h1, h2⟩ := Prod.mk.inj h
  refine ⟨Prod.ext h1 ?_, rfl⟩
  rw [← h2]

theorem eprint_ok (msg : Str) (s s' : MState) (h : (eprintR v msg s).2 = (.ok (), s')) : s'.b = s.b := by
  have h : eprint v msg s = (.ok (), s') := h
  rw [eprint_eq] at h
  have h : s.say v msg = s' := congrArg Prod.snd h
  rw [← h]
  exact say_b v msg s

theorem gcc_ok (cross : Str) (s s' : MState) (c : Str) (h : (gccVersionR w t (cross ++ cs!"gcc") s).2 = (.ok c, s')) :
    (gccVersionR w t (cross ++ cs!"gcc") s).1 = [] ∧ s.b.hist <+: s'.b.hist ∧ CompilerSays w.toWorld cross s'.b.hist c := by
  unfold gccVersionR at h ⊢
  obtain ⟨out, s1, h1, e⟩ := rm_bind_ok _ _ _ _ (congrArg Prod.fst h :)
  rw [e] at h ⊢
  rw [ofB_quiet _ _ _ _ _ _ _ _ _ h1]
  obtain ⟨g, -⟩ := ofB_ok _ _ _ _ h1
  obtain ⟨-, rfl, g3⟩ := ensureR_ok w.toWorld t _ _ _ _ _ _ _ g
  rcases hl : splitLines (w.output s.b.hist ⟨(CmdArg.tuple [.str (cross ++ cs!"gcc"), .str cs!"--version"]).words, none, none, false, s.b.makefile⟩) with _ | ⟨l, rest⟩
  · simp only [hl] at h; cases congrArg Prod.fst h
  · simp only [hl] at h ⊢
    cases h
    rw [g3]
    exact ⟨rfl, List.prefix_append _ _, _, _, l, rest, List.prefix_refl _, rfl, hl, rfl⟩

theorem newBuilder_ok (n : Option Str) (kdir outdir : Option Path) (cross : Str) (s s' : MState) (b : Builder)
    (h : (newBuilderR w t n kdir outdir cross s).2 = (.ok b, s')) :
    (newBuilderR w t n kdir outdir cross s).1 = [] ∧ s.b.hist <+: s'.b.hist := by
  unfold newBuilderR at h ⊢
  split at h
  · cases congrArg Prod.fst h
  · cases congrArg Prod.fst h
  · obtain ⟨_, s1, h1, e⟩ := rm_bind_ok _ _ _ _ (congrArg Prod.fst h :)
    rw [e] at h ⊢
    obtain ⟨g, ge⟩ := ofB_ok _ _ _ _ h1
    obtain ⟨g1, g2, -⟩ := askVersion_ok w.toWorld t _ _ _ _ g
    rw [ge, g1]
    obtain ⟨_, s2, h2, e⟩ := rm_bind_ok _ _ _ _ (congrArg Prod.fst h :)
    rw [e] at h ⊢
    cases h2
    obtain ⟨_, s3, h3, e⟩ := rm_bind_ok _ _ _ _ (congrArg Prod.fst h :)
    rw [e] at h ⊢
    have h3 := (congrArg Prod.snd h3 :)
    subst h3
    obtain ⟨_, s4, h4, e⟩ := rm_bind_ok _ _ _ _ (congrArg Prod.fst h :)
    rw [e] at h ⊢
    cases h4
    cases h
    exact ⟨rfl, g2⟩

theorem clean_ok (w : World) (high : Bool) (b : Builder) (s s' : BState) (h : (cleanR w t high b s).2 = (.ok (), s')) :
    (cleanR w t high b s).1 = [] ∧ s.hist <+: s'.hist ∧ s'.version = none := by
  refine ⟨clean_quiet w t high b s s' h, ?_⟩
  unfold cleanR at h
  obtain ⟨a, s1, h1, h2⟩ := rb_bind_ok _ _ _ _ (congrArg Prod.fst h :)
  rw [h2] at h
  cases h1
  obtain ⟨-, g2, -, g4⟩ := makeR_ok w t high b _ _ _ h
  exact ⟨by rw [g2]; exact List.prefix_append _ _, g4⟩

theorem PrintedBy.mono {w : World} {h h' : List Run} {v : Ver} (hp : PrintedBy w h v) (hh : h <+: h') : PrintedBy w h' v := by
  obtain ⟨pre, r, g1, g2, g3⟩ := hp
  exact ⟨pre, r, g1.trans hh, g2, g3⟩

theorem CompilerSays.mono {w : World} {h h' : List Run} {c v : Str} (hp : CompilerSays w c h v) (hh : h <+: h') : CompilerSays w c h' v := by
  obtain ⟨pre, r, l, rest, g1, g2⟩ := hp
  exact ⟨pre, r, l, rest, g1.trans hh, g2⟩

theorem ConfigSaid.mono {w : World} {b : Builder} {h h' : List Run} {evs : List ErrEvent} (hp : ConfigSaid w b h evs) (hh : h <+: h') :
    ConfigSaid w b h' evs := by
  obtain ⟨v, mk, h1, h2, g1, g2, g3, g4⟩ := hp
  exact ⟨v, mk, h1, h2, PrintedBy.mono g1 hh, g2, g3.trans hh, g4⟩

/-- __main__.py:227-255 -/
def mainBuildTail (args : Args) (n : Option Str) : RM Nat := do
  let b ← catchInitR w v n none (newBuilderR w t n (pathOf args.kdir) (pathOf args.out) (args.cross.getD []))
  if args.build || args.config then do
    eprintR v cs!"Cleaning kernel sources"
    RM.ofB (cleanR w.toWorld t v.high b)
    let ver ← RM.ofB (getVersionR w.toWorld t b)
    eprintR v (cs!"Detected kernel version: " ++ versionStr ver cs!"make")
    eprintR v cs!"Configuring kernel"
    RM.ofB (configureR w.toWorld t v.high b)
    if args.build then do
      eprintR v cs!"Building kernel (might take a while)"
      RM.ofB (buildR w.toWorld t v.high b args.disableOpt)
      tookR t
    else eprintR v cs!"Done"
  else do
    eprintR v cs!"Cleaning kernel sources"
    RM.ofB (cleanR w.toWorld t v.high b)
    eprintR v cs!"Done"
  RM.pure 0

/-- __main__.py:206-255 everything a success writes -/
theorem mainBuild_events (args : Args) (n : Option Str) (s s' : MState) (h : (mainBuildR w t v args n s).2 = (.ok 0, s')) :
    ∃ compiler ver conf build,
      (args.build = true ∨ args.config = true → CompilerSays w.toWorld (args.cross.getD []) s'.b.hist compiler ∧
        PrintedBy w.toWorld s'.b.hist ver ∧
        ∃ b s1, (newBuilder w n (pathOf args.kdir) (pathOf args.out) (args.cross.getD []) s1).1 = .ok b ∧
          ConfigSaid w.toWorld b s'.b.hist conf) ∧
      (args.build = true → BuildSaid w.toWorld t args.disableOpt s'.b.hist build) ∧
      (checkoutLine args).map .say ++ (mainBuildR w t v args n s).1 =
        buildSaid args compiler (versionStr ver cs!"make") (t.took s'.b.hist) conf build := by
  unfold mainBuildR at h ⊢
  obtain ⟨_, s1, h1, e⟩ := rm_bind_ok _ _ _ _ (congrArg Prod.fst h :)
  rw [e] at h ⊢
  cases h1
  rcases ho : outState w s.b.hist (pathOf args.out) with _ | _ | reason
  case notADirectory =>
    simp only [ho] at h
    obtain ⟨_, s2, h2, e⟩ := rm_bind_ok _ _ _ _ (congrArg Prod.fst h :)
    rw [e] at h; cases congrArg Prod.fst h
  case mkdirFails =>
    simp only [ho] at h
    obtain ⟨_, s2, h2, e⟩ := rm_bind_ok _ _ _ _ (congrArg Prod.fst h :)
    rw [e] at h; cases congrArg Prod.fst h
  simp only [ho] at h ⊢
  obtain ⟨_, s2, h2, e⟩ := rm_bind_ok _ _ _ _ (congrArg Prod.fst h :)
  rw [e] at h ⊢
  have hs2 : s2.b = s.b := by cases h2; rfl
  clear h2
  dsimp only at h ⊢
  by_cases hav : (!w.available s.b.hist (args.cross.getD [] ++ cs!"gcc")) = true
  · exfalso
    rw [if_pos hav] at h
    obtain ⟨_, s3, h3, e⟩ := rm_bind_ok _ _ _ _ (congrArg Prod.fst h :)
    rw [e] at h
    obtain ⟨_, s4, h4, e⟩ := rm_bind_ok _ _ _ _ (congrArg Prod.fst h :)
    rw [e] at h
    cases congrArg Prod.fst h
  rw [if_neg hav] at h ⊢
  -- the part after the compiler
  have tail : ∀ (s3 : MState), (mainBuildTail w t v args n s3).2 = (.ok 0, s') → ∀ compiler,
      (args.build = true ∨ args.config = true → CompilerSays w.toWorld (args.cross.getD []) s3.b.hist compiler) →
      ∃ ver conf build,
        (args.build = true ∨ args.config = true → CompilerSays w.toWorld (args.cross.getD []) s'.b.hist compiler ∧
          PrintedBy w.toWorld s'.b.hist ver ∧
          ∃ b s1, (newBuilder w n (pathOf args.kdir) (pathOf args.out) (args.cross.getD []) s1).1 = .ok b ∧
            ConfigSaid w.toWorld b s'.b.hist conf) ∧
        (args.build = true → BuildSaid w.toWorld t args.disableOpt s'.b.hist build) ∧
        (checkoutLine args).map .say ++ ((if args.config || args.build then [.say (cs!"Compiler: " ++ compiler)] else []) ++
          (mainBuildTail w t v args n s3).1) =
          buildSaid args compiler (versionStr ver cs!"make") (t.took s'.b.hist) conf build := by
    intro s3 h compiler hc
    unfold mainBuildTail at h ⊢
    obtain ⟨b, s4, h4, e⟩ := rm_bind_ok _ _ _ _ (congrArg Prod.fst h :)
    rw [e] at h ⊢
    obtain ⟨h4', q4⟩ := catchR_ok w v _ _ _ _ _ _ h4
    obtain ⟨g4, i4⟩ := newBuilder_ok w t _ _ _ _ _ _ _ h4'
    rw [q4, g4]
    have hnb : ∃ b' s1, (newBuilder w n (pathOf args.kdir) (pathOf args.out) (args.cross.getD []) s1).1 = .ok b' ∧ b' = b := by
      refine ⟨b, s3, ?_, rfl⟩
      rw [← newBuilderR_run w t]
      show (newBuilderR w t _ _ _ _ s3).2.1 = _
      rw [h4']
    obtain ⟨b', s1, hb1, rfl⟩ := hnb
    dsimp only at h ⊢
    by_cases hbc : (args.build || args.config) = true
    · rw [if_pos hbc] at h ⊢
      obtain ⟨_, s5, h5, e⟩ := rm_bind_ok _ _ _ _ (congrArg Prod.fst h :)
      rw [e] at h ⊢
      have i5 := eprint_ok v _ _ _ h5
      obtain ⟨_, s6, h6, e⟩ := rm_bind_ok _ _ _ _ (congrArg Prod.fst h :)
      rw [e] at h ⊢
      obtain ⟨g6, q6⟩ := ofB_ok _ _ _ _ h6
      obtain ⟨q6', i6, v6⟩ := clean_ok t w.toWorld _ _ _ _ g6
      obtain ⟨ver, s7, h7, e⟩ := rm_bind_ok _ _ _ _ (congrArg Prod.fst h :)
      rw [e] at h ⊢
      obtain ⟨g7, q7⟩ := ofB_ok _ _ _ _ h7
      obtain ⟨q7', i7, -, hv⟩ := getVersion_ok w.toWorld t _ _ _ _ g7
      have hv : PrintedBy w.toWorld s7.b.hist ver := by
        rcases hv with hv | hv
        · rw [v6] at hv; cases hv
        · exact hv
      obtain ⟨_, s8, h8, e⟩ := rm_bind_ok _ _ _ _ (congrArg Prod.fst h :)
      rw [e] at h ⊢
      have i8 := eprint_ok v _ _ _ h8
      obtain ⟨_, s9, h9, e⟩ := rm_bind_ok _ _ _ _ (congrArg Prod.fst h :)
      rw [e] at h ⊢
      have i9 := eprint_ok v _ _ _ h9
      obtain ⟨_, s10, h10, e⟩ := rm_bind_ok _ _ _ _ (congrArg Prod.fst h :)
      rw [e] at h ⊢
      obtain ⟨g10, q10⟩ := ofB_ok _ _ _ _ h10
      obtain ⟨hconf, i10, -⟩ := configure_events w.toWorld t _ _ _ _ g10
      have i310 : s3.b.hist <+: s10.b.hist := by
        refine i4.trans ?_
        rw [← i5]
        refine i6.trans (i7.hist.trans ?_)
        rw [← i8, ← i9]
        exact i10
      have i710 : s7.b.hist <+: s10.b.hist := by
        rw [← i8, ← i9]
        exact i10
      rw [q6, q6', q7, q7', q10]
      generalize (configureR w.toWorld t v.high b' s9.b).1 = conf at hconf ⊢
      have hc := hc (by simpa using hbc)
      have hcb : (args.config || args.build) = true := by rw [Bool.or_comm]; exact hbc
      cases hbu : args.build with
      | true =>
        simp only [hbu, if_true] at h ⊢
        obtain ⟨_, s11, h11, e⟩ := rm_bind_ok _ _ _ _ (congrArg Prod.fst h :)
        rw [e] at h ⊢
        have i11 := eprint_ok v _ _ _ h11
        obtain ⟨_, s12, h12, e⟩ := rm_bind_ok _ _ _ _ (congrArg Prod.fst h :)
        rw [e] at h ⊢
        obtain ⟨g12, q12⟩ := ofB_ok _ _ _ _ h12
        obtain ⟨hbuild, i12⟩ := build_events w.toWorld t _ _ _ _ _ g12
        obtain ⟨_, s13, h13, e⟩ := rm_bind_ok _ _ _ _ (congrArg Prod.fst h :)
        rw [e] at h ⊢
        cases h13
        cases h
        rw [q12]
        rw [i11] at i12
        refine ⟨ver, conf, _, fun _ => ⟨CompilerSays.mono hc (i310.trans i12), PrintedBy.mono hv (i710.trans i12), b', s1, hb1, ConfigSaid.mono hconf i12⟩, fun _ => hbuild, ?_⟩
        unfold buildSaid
        simp only [hbu, Bool.or_true, if_true]
        simp [eprintR, tookR, RM.pure]
      | false =>
        have hco : args.config = true := by simpa [hbu] using hbc
        simp only [hbu, Bool.false_eq_true, if_false] at h ⊢
        obtain ⟨_, s11, h11, e⟩ := rm_bind_ok _ _ _ _ (congrArg Prod.fst h :)
        rw [e] at h ⊢
        have i11 := eprint_ok v _ _ _ h11
        cases h
        rw [i11]
        refine ⟨ver, conf, [], fun _ => ⟨CompilerSays.mono hc i310, PrintedBy.mono hv i710, b', s1, hb1, hconf⟩, fun h => h.elim, ?_⟩
        unfold buildSaid
        simp only [hbu, hco, Bool.or_false, Bool.false_eq_true, if_false, if_true]
        simp [eprintR, RM.pure]
    · rw [if_neg hbc] at h ⊢
      obtain ⟨_, s5, h5, e⟩ := rm_bind_ok _ _ _ _ (congrArg Prod.fst h :)
      rw [e] at h ⊢
      obtain ⟨_, s6, h6, e⟩ := rm_bind_ok _ _ _ _ (congrArg Prod.fst h :)
      rw [e] at h ⊢
      obtain ⟨g6, q6⟩ := ofB_ok _ _ _ _ h6
      obtain ⟨q6', -, -⟩ := clean_ok t w.toWorld _ _ _ _ g6
      rw [q6, q6']
      obtain ⟨_, s7, h7, e⟩ := rm_bind_ok _ _ _ _ (congrArg Prod.fst h :)
      rw [e]
      simp only [Bool.or_eq_true, not_or, Bool.not_eq_true] at hbc
      refine ⟨[], [], [], fun h => ?_, fun h => ?_, ?_⟩
      · simp [hbc] at h
      · simp [hbc] at h
      · unfold buildSaid
        simp only [hbc.1, hbc.2, Bool.or_false, Bool.false_eq_true, if_false]
        simp [eprintR, RM.pure]
  by_cases hcb : (args.config || args.build) = true
  · rw [if_pos hcb] at h ⊢
    obtain ⟨c, s3, h3, e⟩ := rm_bind_ok _ _ _ _ (congrArg Prod.fst h :)
    rw [e] at h ⊢
    obtain ⟨q3, -, hc⟩ := gcc_ok w t _ _ _ _ h3
    obtain ⟨_, s4, h4, e⟩ := rm_bind_ok _ _ _ _ (congrArg Prod.fst h :)
    rw [e] at h ⊢
    have i4 := eprint_ok v _ _ _ h4
    obtain ⟨ver, conf, build, t1, t2, t3⟩ := tail s4 h c (fun _ => by rw [i4]; exact hc)
    refine ⟨c, ver, conf, build, t1, t2, ?_⟩
    rw [q3, ← t3, if_pos hcb]
    rfl
  · rw [if_neg hcb] at h ⊢
    obtain ⟨_, s3, h3, e⟩ := rm_bind_ok _ _ _ _ (congrArg Prod.fst h :)
    rw [e] at h ⊢
    cases h3
    obtain ⟨ver, conf, build, t1, t2, t3⟩ := tail _ h [] (fun hx => absurd (by simpa [or_comm] using hx) hcb)
    refine ⟨[], ver, conf, build, t1, t2, ?_⟩
    rw [← t3, if_neg hcb]
    rfl

theorem bodyR_valid (help : Str) (args : Args) (h : ¬ Invalid args) :
    mainBodyR w t help args = mainRunR w t (setupLogging args.quiet args.verbose) args (args.arch.map lower) := by
  unfold mainBodyR
  simp only []
  rw [if_neg (fun x => h (.arch ((unknown_iff args).1 x))), if_neg, if_neg, if_neg]
  · rw [given_lower]
    intro x
    simp only [Bool.and_eq_true, Bool.not_eq_true', Bool.or_eq_true, ← Bool.not_eq_true, given_iff] at x
    exact h (.noArch x.1 x.2)
  · intro x
    simp only [Bool.and_eq_true, Bool.not_eq_true', Bool.or_eq_true, ← Bool.not_eq_true, given_iff] at x
    exact h (.noKdir x.1 (by rcases x.2 with (b | b) | b <;> simp [b]))
  · intro x
    simp only [Bool.and_eq_true, Bool.not_eq_true', ← Bool.not_eq_true, given_iff] at x
    exact h (.nothing x.1 x.2)

/-- the part after the explicit checkout -/
def mainTailR (args : Args) (n : Option Str) : RM Nat :=
  if args.clean || args.config || args.build then mainBuildR w t v args n else mainAnalyzeR w t v args n

/-- a successful run: the line of the checkout, then the rest -/
theorem runR_ok (args : Args) (n : Option Str) (s : MState) (h : (mainRunR w t v args n s).2.1 = .ok 0) :
    ∃ s1, mainRunR w t v args n s = ((checkoutLine args).map .say ++ (mainTailR w t v args n s1).1, (mainTailR w t v args n s1).2) := by
  by_cases he : ∃ ref, ExplicitRef args ref
  · have hc := (explicit_iff args).2 he
    obtain ⟨ref, h1, h2, h3⟩ := he
    have hl : checkoutLine args = [cs!"Checking out to " ++ ref] := by
      unfold checkoutLine
      rw [h1]
      simp only
      rw [if_neg (by simp [h2, h3])]
    unfold mainRunR at h ⊢
    rw [if_pos hc] at h ⊢
    obtain ⟨u, s1, g1, g2⟩ := rm_bind_ok _ _ _ _ h
    rw [g2] at h ⊢
    obtain ⟨u, s2, g3, g4⟩ := rm_bind_ok _ _ _ _ h
    rw [g4]
    refine ⟨s2, ?_⟩
    rw [git_quiet w t _ _ _ _ g3, hl, h1]
    rfl
  · have hl : checkoutLine args = [] := by
      unfold checkoutLine
      split
      · next ref hr =>
        by_cases h1 : ref = [] ∨ ref = cs!"auto"
        · rw [if_pos h1]
        · push Not at h1
          exact absurd ⟨ref, hr, h1.1, h1.2⟩ he
      · rfl
    refine ⟨s, ?_⟩
    unfold mainRunR
    rw [if_neg (fun x => he ((explicit_iff args).1 x)), hl]
    rfl

end

end Verif
