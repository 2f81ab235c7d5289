import Verif.Lemmas.Ends
import Verif.Lemmas.Failures
/-! # Lemmas: which runs end (C107) -/
set_option autoImplicit false

namespace Verif
open Spec

/-! ## Configuration -/

theorem ends_splitEq (s : Str) : Ends (splitEq s) := by unfold splitEq; ends
macro_rules | `(tactic| ends1) => `(tactic| with_reducible exact ends_splitEq _)

theorem ends_parseConfigGo (c : Dict Str Str) (l : List Str) : Ends (parseConfigGo c l) := by
  induction l generalizing c with
  | nil => exact ends_ok _
  | cons x l ih =>
    unfold parseConfigGo
    refine ends_bind _ _ ?_ fun _ => ih _
    unfold parseConfigLine
    ends

theorem ends_editArgs (l : List Str) : Ends (editArgs l) := by
  induction l with
  | nil => exact ends_ok _
  | cons x l ih =>
    unfold editArgs
    refine ends_bind _ _ ?_ fun _ => ends_bind _ _ ih fun _ => ends_ok _
    unfold optionArgs
    ends

theorem ends_tosetOf (l : List Str) : Ends (tosetOf l) := by
  induction l with
  | nil => exact ends_ok _
  | cons x l ih => exact ends_bind _ _ (ends_splitEq _) fun _ => ends_bind _ _ ih fun _ => ends_ok _

theorem ends_of_eq {α β : Type} {r : Res α} {e : Exc} (h : Ends r) (he : r = .error e) : Ends (.error e : Res β) := by
  subst he
  intro h'
  cases h'
  exact h rfl

theorem ends_editConfig (o : List Str) : Ends (editConfig o).2 := by
  unfold editConfig
  split
  · exact ends_ok _
  · split
    · next h => exact ends_of_eq (ends_editArgs _) h
    · exact ends_ok _

theorem ends_checkDeps (t c : Dict Str Str) (d : List (List Str) → Str → Str) (b : List (List Str)) (l : List (Str × Str)) :
    Ends (checkDeps t c d b l).2 := by
  induction l generalizing b with
  | nil => exact ends_ok _
  | cons x l ih =>
    obtain ⟨opt, dep⟩ := x
    have h1 : Ends (checkDep t c d b opt dep).2 := by
      unfold checkDep
      split
      · next h => exact ends_of_eq (ends_splitEq _) h
      · dsimp only
        split
        · split
          · exact ends_ok _
          · split <;> exact ends_ok _
        · exact ends_ok _
    unfold checkDeps
    split
    · next h => rw [h] at h1; exact h1
    · exact ih _

theorem ends_editCheck (l : List Str) (d : List (List Str) → Str → Str) (o : Dict Str (List Str)) :
    Ends (editConfigCheckDeps l d o).2 := by
  unfold editConfigCheckDeps
  split
  · exact ends_ok _
  · split
    · next h => exact ends_of_eq (ends_tosetOf _) h
    · split
      · next h => exact ends_of_eq (ends_parseConfigGo _ _) h
      · have h1 := fun t c => ends_checkDeps t c d [] (o.flatMap fun od => od.2.map fun d => (od.1, d))
        split
        · next h =>
          exact ends_of_eq (h1 _ _) (by rw [h])
        · exact ends_editConfig _

/-! ## Actions of the build -/

def EndsB {α : Type} (m : BM α) : Prop := ∀ s, Ends (m s).1

section
variable {α β : Type}

theorem endsB_pure (x : α) : EndsB (BM.pure x) := fun _ => ends_ok _
theorem endsB_raise (e : Exc) (h : e ≠ .hang) : EndsB (BM.raise e : BM α) := fun _ => ends_error _ h
theorem endsB_lift (r : Res α) (h : Ends r) : EndsB (BM.lift r) := fun _ => h
theorem endsB_get : EndsB BM.get := fun _ => ends_ok _
theorem endsB_modify (f : BState → BState) : EndsB (BM.modify f) := fun _ => ends_ok _
theorem endsB_bind {m : BM α} {f : α → BM β} (hm : EndsB m) (hf : ∀ x, EndsB (f x)) : EndsB (m >>= f) := by
  intro s
  have h := hm s
  show Ends (BM.bind m f s).1
  unfold BM.bind
  split
  · exact hf _ _
  · next hx => rw [hx] at h; exact ends_of_eq h rfl
theorem endsB_tick (w : World) (p : Point) : EndsB (tick w p) := by
  unfold tick
  split
  · exact endsB_raise _ (by intro h; cases h)
  · exact endsB_pure _

/-- one step of a proof that an action ends -/
syntax "endsB1" : tactic
macro_rules | `(tactic| endsB1) => `(tactic| split)
macro_rules | `(tactic| endsB1) => `(tactic| dsimp only)
macro_rules | `(tactic| endsB1) => `(tactic| with_reducible refine endsB_bind ?_ fun _ => ?_)
macro_rules | `(tactic| endsB1) => `(tactic| (with_reducible refine endsB_raise _ ?_); exact (by intro h; cases h))
macro_rules | `(tactic| endsB1) => `(tactic| with_reducible exact endsB_pure _)
macro_rules | `(tactic| endsB1) => `(tactic| with_reducible exact endsB_get)
macro_rules | `(tactic| endsB1) => `(tactic| with_reducible exact endsB_modify _)
macro_rules | `(tactic| endsB1) => `(tactic| with_reducible exact endsB_tick _ _)
macro "endsB" : tactic => `(tactic| repeat' endsB1)

end

section
variable (w : World) (b : Builder)

theorem endsB_exec (argv : List Str) (cwd : Option Path) (i : Option Str) : EndsB (exec w argv cwd i) := by unfold exec; endsB
macro_rules | `(tactic| endsB1) => `(tactic| with_reducible exact endsB_exec _ _ _ _)

theorem endsB_ensure (argv : List Str) (cwd : Option Path) (i : Option Str) : EndsB (ensureCommand w argv cwd i) := by
  unfold ensureCommand notStarted; endsB
macro_rules | `(tactic| endsB1) => `(tactic| with_reducible exact endsB_ensure _ _ _ _)

theorem endsB_run (argv : List Str) (cwd : Option Path) (i : Option Str) : EndsB (runCommand w argv cwd i) := by
  unfold runCommand notStarted; endsB
macro_rules | `(tactic| endsB1) => `(tactic| with_reducible exact endsB_run _ _ _ _)

theorem endsB_make (t : Str) (i : Option Str) : EndsB (make w b t i) := by unfold make; endsB
macro_rules | `(tactic| endsB1) => `(tactic| with_reducible exact endsB_make _ _ _ _)

theorem endsB_getVersion : EndsB (getVersion w b) := by unfold getVersion; endsB
macro_rules | `(tactic| endsB1) => `(tactic| with_reducible exact endsB_getVersion _ _)

theorem endsB_sync : EndsB (syncConfig w b) := by unfold syncConfig; endsB
macro_rules | `(tactic| endsB1) => `(tactic| with_reducible exact endsB_sync _ _)

theorem endsB_clean : EndsB (clean w b) := by unfold clean; endsB

theorem endsB_performK (es : List KEvent) : EndsB (performK w b es) := by
  induction es with
  | nil => exact endsB_pure _
  | cons e es ih =>
    cases e <;> simp only [performK]
    all_goals first | exact ih | exact endsB_bind (endsB_ensure _ _ _ _) fun _ => ih

theorem endsB_performAll (p : List KEvent × Res Unit) (h : Ends p.2) : EndsB (performAll w b p) :=
  endsB_bind (endsB_performK w b _) fun _ => endsB_lift _ h

theorem endsB_apply (o : List Str) : EndsB (applyOptions w b o) := endsB_performAll w b _ (ends_editConfig _)
macro_rules | `(tactic| endsB1) => `(tactic| with_reducible exact endsB_apply _ _ _)

theorem endsB_check (o : Dict Str (List Str)) : EndsB (applyOptionsCheck w b o) := by
  unfold applyOptionsCheck
  split
  · exact endsB_pure _
  · refine endsB_bind endsB_get fun s => ?_
    split
    · exact endsB_raise _ (by intro h; cases h)
    · next p hp =>
      refine endsB_performAll w b _ ?_
      unfold checkEvents at hp
      cases hl : w.readLines s.hist (b.configFile.absolute w.cwd) with
      | none => rw [hl] at hp; cases hp
      | some ls =>
        rw [hl] at hp
        simp only [Option.map_some, Option.some.injEq] at hp
        rw [← hp]
        exact ends_editCheck _ _ _
macro_rules | `(tactic| endsB1) => `(tactic| with_reducible exact endsB_check _ _ _)

theorem endsB_forM (l : List Str) (f : Str → BM Unit) (h : ∀ x, EndsB (f x)) : EndsB (l.forM f) := by
  induction l with
  | nil => exact endsB_pure _
  | cons x l ih => exact endsB_bind (h x) fun _ => ih

theorem endsB_configure : EndsB (configure w b) := by
  unfold configure
  refine endsB_bind (endsB_modify _) fun _ => ?_
  refine endsB_bind (endsB_forM _ _ fun t => endsB_make w b _ _) fun _ => ?_
  endsB

theorem endsB_trySet (lvl : Nat) : EndsB (trySetOptLevel w lvl) := by unfold trySetOptLevel; endsB
macro_rules | `(tactic| endsB1) => `(tactic| with_reducible exact endsB_trySet _ _)

theorem endsB_restore (lvl : Nat) : EndsB (restoreMakefile w lvl) := by unfold restoreMakefile; endsB
macro_rules | `(tactic| endsB1) => `(tactic| with_reducible exact endsB_restore _ _)

theorem endsB_tryMake (t : Str) : EndsB (tryMake w b t) := endsB_run _ _ _ _
macro_rules | `(tactic| endsB1) => `(tactic| with_reducible exact endsB_tryMake _ _ _)

theorem endsB_build (opt : Bool) : EndsB (build w b opt) := by unfold build; endsB

end

/-! ## Actions of the program -/

def EndsM {α : Type} (m : MM α) : Prop := ∀ s, Ends (m s).1

section
variable {α β : Type}

theorem endsM_pure (x : α) : EndsM (MM.pure x) := fun _ => ends_ok _
theorem endsM_raise (e : Exc) (h : e ≠ .hang) : EndsM (MM.raise e : MM α) := fun _ => ends_error _ h
theorem endsM_lift (r : Res α) (h : Ends r) : EndsM (MM.lift r) := fun _ => h
theorem endsM_get : EndsM MM.get := fun _ => ends_ok _
theorem endsM_modify (f : MState → MState) : EndsM (MM.modify f) := fun _ => ends_ok _
theorem endsM_ofB {m : BM α} (h : EndsB m) : EndsM (MM.ofB m) := fun s => h s.b
theorem endsM_bind {m : MM α} {f : α → MM β} (hm : EndsM m) (hf : ∀ x, EndsM (f x)) : EndsM (m >>= f) := by
  intro s
  have h := hm s
  show Ends (MM.bind m f s).1
  unfold MM.bind
  split
  · exact hf _ _
  · next hx => rw [hx] at h; exact ends_of_eq h rfl
theorem endsM_eprint (v : Verbosity) (m : Str) : EndsM (eprint v m) := by
  unfold eprint
  split
  · exact endsM_pure _
  · exact endsM_modify _
theorem endsM_eprints (v : Verbosity) (ls : List Str) : EndsM (eprints v ls) := by
  induction ls with
  | nil => exact endsM_pure _
  | cons l ls ih => exact endsM_bind (endsM_eprint _ _) fun _ => ih

/-- one step of a proof that an action ends -/
syntax "endsM1" : tactic
macro_rules | `(tactic| endsM1) => `(tactic| split)
macro_rules | `(tactic| endsM1) => `(tactic| dsimp only)
macro_rules | `(tactic| endsM1) => `(tactic| with_reducible refine endsM_bind ?_ fun _ => ?_)
macro_rules | `(tactic| endsM1) => `(tactic| with_reducible refine endsM_ofB ?_)
macro_rules | `(tactic| endsM1) => `(tactic| (with_reducible refine endsM_raise _ ?_); exact (by intro h; cases h))
macro_rules | `(tactic| endsM1) => `(tactic| with_reducible exact endsM_pure _)
macro_rules | `(tactic| endsM1) => `(tactic| with_reducible exact endsM_get)
macro_rules | `(tactic| endsM1) => `(tactic| with_reducible exact endsM_modify _)
macro_rules | `(tactic| endsM1) => `(tactic| with_reducible exact endsM_eprint _ _)
macro "endsM" : tactic => `(tactic| repeat' endsM1)

theorem endsM_catch (w : MWorld) (v : Verbosity) (n : Option Str) (d : Option (Kind × Bool × List Str)) (m : MM α) (h : EndsM m) :
    EndsM (catchInit w v n d m) := by
  intro s
  have hs := h s
  unfold catchInit
  split
  · exact ends_ok _
  · next hx =>
    rw [hx] at hs
    split
    · exact hs
    · exact endsM_bind (endsM_eprints _ _) (fun _ => endsM_raise _ (by intro h; cases h)) _
end

section
variable (w : MWorld)

theorem endsM_gcc (cmd : Str) : EndsM (gccVersion w cmd) := by
  unfold gccVersion
  refine endsM_bind (endsM_ofB (endsB_ensure _ _ _ _)) fun _ => ?_
  endsM

theorem endsM_git (k : Option Path) (ref : Str) : EndsM (gitCheckout w k ref) :=
  endsM_bind (endsM_ofB (endsB_ensure _ _ _ _)) fun _ => endsM_pure _

theorem endsM_newBuilder (n : Option Str) (k o : Option Path) (c : Str) : EndsM (newBuilder w n k o c) := by
  unfold newBuilder
  split
  · endsM
  · endsM
  · refine endsM_bind (endsM_ofB ?_) fun v => ?_
    · unfold firstVersion; endsB
    · refine endsM_bind endsM_get fun s => endsM_bind (endsM_lift _ (ends_archFromNameSt _ _ _)) fun p => ?_
      endsM

theorem endsM_load (p : Path) : EndsM (loadElf w p) := by
  unfold loadElf
  refine endsM_bind endsM_get fun s => ?_
  split
  · endsM
  · refine endsM_bind (endsM_lift _ (ends_header _)) fun h => ?_
    refine endsM_bind (endsM_ofB (endsB_ensure _ _ _ _)) fun out => ?_
    split
    · endsM
    · exact endsM_bind (endsM_ofB (endsB_ensure _ _ _ _)) fun _ => endsM_lift _ (ends_load _ _ _)

theorem endsM_mainBuild (v : Verbosity) (args : Args) (n : Option Str) : EndsM (mainBuild w v args n) := by
  have rest : EndsM (do
      let b ← catchInit w v n none (newBuilder w n (pathOf args.kdir) (pathOf args.out) (args.cross.getD []))
      if args.build || args.config then do
        eprint v cs!"Cleaning kernel sources"
        MM.ofB (clean w.toWorld b)
        let ver ← MM.ofB (getVersion w.toWorld b)
        eprint v (cs!"Detected kernel version: " ++ versionStr ver cs!"make")
        eprint v cs!"Configuring kernel"
        MM.ofB (configure w.toWorld b)
        if args.build then do
          eprint v cs!"Building kernel (might take a while)"
          MM.ofB (build w.toWorld b args.disableOpt)
        else eprint v cs!"Done"
      else do
        eprint v cs!"Cleaning kernel sources"
        MM.ofB (clean w.toWorld b)
        eprint v cs!"Done"
      MM.pure 0 : MM Nat) := by
    refine endsM_bind (endsM_catch w _ _ _ _ (endsM_newBuilder w _ _ _ _)) fun b => ?_
    split
    · refine endsM_bind (endsM_eprint _ _) fun _ => ?_
      refine endsM_bind (endsM_ofB (endsB_clean _ _)) fun _ => ?_
      refine endsM_bind (endsM_ofB (endsB_getVersion _ _)) fun _ => ?_
      refine endsM_bind (endsM_eprint _ _) fun _ => ?_
      refine endsM_bind (endsM_eprint _ _) fun _ => ?_
      refine endsM_bind (endsM_ofB (endsB_configure _ _)) fun _ => ?_
      split
      · refine endsM_bind (endsM_eprint _ _) fun _ => ?_
        exact endsM_bind (endsM_ofB (endsB_build _ _ _)) fun _ => endsM_pure _
      · exact endsM_bind (endsM_eprint _ _) fun _ => endsM_pure _
    · refine endsM_bind (endsM_eprint _ _) fun _ => ?_
      refine endsM_bind (endsM_ofB (endsB_clean _ _)) fun _ => ?_
      exact endsM_bind (endsM_eprint _ _) fun _ => endsM_pure _
  unfold mainBuild
  refine endsM_bind endsM_get fun s => ?_
  simp only []
  split
  · endsM
  · endsM
  · refine endsM_bind (endsM_modify _) fun _ => ?_
    split
    · endsM
    · split
      · exact endsM_bind (endsM_gcc w _) fun _ => endsM_bind (endsM_eprint _ _) fun _ => rest
      · exact endsM_bind (endsM_pure _) fun _ => rest

/-! ## The analysis -/

theorem ends_versionTag (v : Ver) : Ends (versionTag v) := by unfold versionTag; ends
macro_rules | `(tactic| ends1) => `(tactic| with_reducible exact ends_versionTag _)

theorem ends_relativize (k : Option Path) (a : Bool) (sc : Syscall) : Ends (relativize k a sc) := by unfold relativize; ends

theorem ends_textLines (n : Nat) (scs : List Syscall) : Ends (textLines n scs) := by unfold textLines; ends
macro_rules | `(tactic| ends1) => `(tactic| with_reducible exact ends_textLines _ _)

theorem ends_jsonData (k : KernelInfo) : Ends (jsonData k) := by unfold jsonData; ends
macro_rules | `(tactic| ends1) => `(tactic| with_reducible exact ends_jsonData _)

theorem ends_maxArgs (scs : List Syscall) : Ends (maxArgs scs) := by unfold maxArgs; ends
macro_rules | `(tactic| ends1) => `(tactic| with_reducible exact ends_maxArgs _)

theorem ends_outputText (scs : List Syscall) : Ends (outputText scs) := by
  unfold outputText
  split
  · next h => exact ends_of_eq (ends_textLines _ _) h
  · exact ends_ok _

theorem ends_output (j : Bool) (css js : Str) (k : KernelInfo) (f : Format) : Ends (outputSyscalls j css js k f) := by
  unfold outputSyscalls
  split
  · exact ends_outputText _
  · unfold outputJson; ends
  · unfold outputHtml; ends

/-- when the action, begun in the state, does not end, the property holds of the commands run -/
def LastsAt (P : List Run → Prop) {α : Type} (m : MM α) (s : MState) : Prop := (m s).1 = .error .hang → P (m s).2.b.hist

theorem lasts_ends {P : List Run → Prop} {α : Type} {m : MM α} (h : EndsM m) (s : MState) : LastsAt P m s := fun h' => absurd h' (h s)

theorem lasts_bind {P : List Run → Prop} {α β : Type} {m : MM α} {f : α → MM β} {s : MState} (hm : LastsAt P m s)
    (hf : ∀ x s1, m s = (.ok x, s1) → LastsAt P (f x) s1) : LastsAt P (m >>= f) s := by
  intro h
  change (MM.bind m f s).1 = _ at h
  show P (MM.bind m f s).2.b.hist
  unfold MM.bind at *
  split
  · next x s1 hx =>
    rw [hx] at h
    exact hf x s1 hx h
  · next e s1 hx =>
    rw [hx] at h
    cases h
    have := hm (by rw [hx])
    rw [hx] at this
    exact this

theorem lasts_catch {P : List Run → Prop} {α : Type} (v : Verbosity) (n : Option Str) (d : Option (Kind × Bool × List Str)) (m : MM α)
    (s : MState) (h : LastsAt P m s) : LastsAt P (catchInit w v n d m) s := by
  intro hh
  unfold catchInit at *
  split
  · next hx => rw [hx] at hh; cases hh
  · next e s1 hx =>
    rw [hx] at hh
    simp only at hh
    split
    · next hi =>
      rw [hi] at hh
      cases hh
      have := h (by rw [hx])
      rw [hx] at this
      exact this
    · next ls hi =>
      rw [hi] at hh
      exact absurd hh (endsM_bind (endsM_eprints _ _) (fun _ => endsM_raise _ (by intro h; cases h)) _)

theorem history_grows {α : Type} (m : MM α) (h : HeedsM w.toWorld (fun _ => True) m) (s s1 : MState) (x : Res α)
    (hx : m s = (x, s1)) : s.b.hist <+: s1.b.hist := by
  obtain ⟨R, h1, -⟩ := h s
  rw [hx] at h1
  exact ⟨R, h1.symm⟩

theorem lasts_analysis (args : Args) (n : Option Str) (p : Path) (hp : vmlinuxPath args = some p) (s : MState) :
    LastsAt (Endless w args) (newAnalysis w n p (pathOf args.kdir)) s := by
  unfold newAnalysis
  refine lasts_bind (lasts_ends (endsM_load w p) s) fun e s1 h1 => ?_
  have hl := loadElf_ok _ _ _ _ _ h1
  have hg := history_grows w _ (heedsM_load w _ p) _ _ _ h1
  have hb : ∀ {α : Type} (r : Res α), (¬ EndlessBanner e → Ends r) → LastsAt (Endless w args) (MM.lift r) s1 := by
    intro α r h hh
    exact ⟨p, e, hp, ⟨_, hg, hl⟩, .inl (Classical.byContradiction fun hn => h hn hh)⟩
  refine lasts_bind (hb _ fun h => ends_kernelInit _ _ _ _ h) fun a s2 h2 => ?_
  have h2' : s1 = s2 := congrArg Prod.snd h2
  subst h2'
  refine lasts_bind (hb _ fun h => ends_kernelVersion _ _ _ h) fun a s2 h2 => ?_
  exact lasts_ends (endsM_pure _) _

theorem analysis_loaded (n : Option Str) (p : Path) (kd : Option Path) (s s1 : MState) (k : Analysis)
    (h : newAnalysis w n p kd s = (.ok k, s1)) : LoadedFrom w s.b.hist p k.elf := by
  unfold newAnalysis at h
  rw [mm_bind] at h
  cases hl : loadElf w p s with
  | mk r s2 =>
    rw [hl] at h
    cases r with
    | error e => cases h
    | ok e =>
      simp only [mm_bind, mm_lift] at h
      split at h
      · split at h
        · cases h
          exact loadElf_ok _ _ _ _ _ hl
        · cases h
      · cases h

theorem lasts_report (hw : ∀ hist, Responds (w.locEnv hist)) (v : Verbosity) (args : Args) (k : Analysis) (p : Path)
    (hp : vmlinuxPath args = some p) (s : MState) (hl : ∃ h, h <+: s.b.hist ∧ LoadedFrom w h p k.elf) :
    LastsAt (Endless w args) (mainReport w v args k p) s := by
  unfold mainReport
  dsimp only
  refine lasts_bind (lasts_ends endsM_get s) fun s0 s1 h1 => ?_
  cases h1
  refine lasts_bind ?_ fun scs s1 h1 => lasts_ends ?_ _
  · intro hh
    refine ⟨p, k.elf, hp, hl, .inr (Classical.byContradiction fun hn => ?_)⟩
    rw [not_or] at hn
    have hr : Responds { w.locEnv s.b.hist with haveAddr2line := w.available s.b.hist cs!"addr2line", elfPath := p } :=
      hw s.b.hist
    exact ends_extract k.arch k.elf k.version _ hr w.niOrder w.x86 (pathOf args.kdir) (pathOf args.remap) hn.1
      (fun h1 h2 => hn.2 ⟨h1, _, h2⟩) hh
  · split
    · endsM
    · refine endsM_bind (endsM_lift _ (ends_mapRes _ _ fun _ _ => ends_relativize _ _ _)) fun scs => ?_
      refine endsM_bind (endsM_eprints _ _) fun _ => ?_
      refine endsM_bind (endsM_lift _ (ends_output _ _ _ _ _)) fun _ => ?_
      endsM

theorem lasts_analyze (hw : ∀ hist, Responds (w.locEnv hist)) (v : Verbosity) (args : Args) (n : Option Str) (s : MState) :
    LastsAt (Endless w args) (mainAnalyze w v args n) s := by
  unfold mainAnalyze
  dsimp only
  split
  · exact lasts_ends (by endsM) _
  · split
    · exact lasts_ends (by endsM) _
    · next p hp =>
      refine lasts_bind (lasts_ends endsM_get s) fun s0 s1 h1 => ?_
      cases h1
      split
      · exact lasts_ends (by endsM) _
      · split
        · exact lasts_ends (by endsM) _
        · refine lasts_bind (lasts_catch w _ _ _ _ _ (lasts_analysis w args n p hp s)) fun k s1 h1 => ?_
          have hl : LoadedFrom w s.b.hist p k.elf := by
            unfold catchInit at h1
            split at h1
            · next hx => cases h1; exact analysis_loaded w _ _ _ _ _ _ hx
            · split at h1
              · cases h1
              · rw [mm_bind, eprints_eq] at h1
                cases h1
          have g1 := history_grows w _ (heedsM_catch w _ _ _ _ _ (heedsM_analysis w _ _ _ _)) _ _ _ h1
          refine lasts_bind (lasts_ends (endsM_eprint _ _) _) fun _ s2 h2 => ?_
          have g2 := history_grows w _ (heedsM_eprint w _ _ _) _ _ _ h2
          have hc : EndsM (autoCheckout w v args k) := by
            unfold autoCheckout
            split
            · exact endsM_bind (endsM_lift _ (ends_versionTag _)) fun _ => endsM_bind (endsM_eprint _ _) fun _ => endsM_git w _ _
            · exact endsM_pure _
          have hc' : HeedsM w.toWorld (fun _ => True) (autoCheckout w v args k) := by
            unfold autoCheckout
            split
            · exact heedsM_bind (heedsM_lift _) fun _ => heedsM_bind (heedsM_eprint w _ _ _) fun _ => heedsM_git w _ _ _
            · exact heedsM_pure _
          refine lasts_bind (lasts_ends hc _) fun _ s3 h3 => ?_
          have g3 := history_grows w _ hc' _ _ _ h3
          exact lasts_report w hw v args k p hp s3 ⟨_, (g1.trans g2).trans g3, hl⟩

/-- a run that does not end is an analysis, and something it reads has no end -/
theorem lasts_main (hw : ∀ hist, Responds (w.locEnv hist)) (help : Str) (args : Args) (s : MState) :
    LastsAt (fun h => (args.clean || args.config || args.build) = false ∧ Endless w args h) (main w help args) s := by
  unfold main
  dsimp only
  split
  · split
    · exact lasts_ends (by endsM) _
    · exact lasts_ends (by endsM) _
  split
  · exact lasts_ends (by endsM) _
  split
  · exact lasts_ends (by endsM) _
  split
  · exact lasts_ends (by endsM) _
  unfold mainRun
  have tail : ∀ s, LastsAt (fun h => (args.clean || args.config || args.build) = false ∧ Endless w args h)
      (if args.clean || args.config || args.build then mainBuild w (setupLogging args.quiet args.verbose) args (args.arch.map lower)
        else mainAnalyze w (setupLogging args.quiet args.verbose) args (args.arch.map lower)) s := by
    intro s
    split
    · exact lasts_ends (endsM_mainBuild w _ _ _) _
    · next hb => exact fun hh => ⟨by simpa using hb, lasts_analyze w hw _ _ _ s hh⟩
  by_cases hx : (given args.checkout && decide (args.checkout ≠ some cs!"auto")) = true
  · rw [if_pos hx]
    refine lasts_bind (lasts_ends (endsM_eprint _ _) _) fun _ s2 _ => ?_
    exact lasts_bind (lasts_ends (endsM_git w _ _) _) fun _ s3 _ => tail s3
  · rw [if_neg hx]
    exact lasts_bind (lasts_ends (endsM_pure _) _) fun _ s3 _ => tail s3

end

end Verif
