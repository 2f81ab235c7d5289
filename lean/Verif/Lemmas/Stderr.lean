import Verif.Model.Stderr
import Verif.Lemmas.Main
import Verif.Props.Whole
import Verif.Props.DepDiag
/-! # Runs with their messages are the runs without -/
set_option autoImplicit false
set_option maxRecDepth 8000

namespace Verif
open Spec

/-- forget what is written -/
def RB.run {α : Type} (m : RB α) : BM α := fun s => (m s).2

def RM.run {α : Type} (m : RM α) : MM α := fun s => (m s).2

theorem rb_bind {α β : Type} (m : RB α) (f : α → RB β) : RB.run (m >>= f) = RB.run m >>= fun x => RB.run (f x) := by
  funext s
  show (RB.bind m f s).2 = BM.bind (RB.run m) (fun x => RB.run (f x)) s
  unfold RB.bind BM.bind RB.run
  rcases (m s).2 with ⟨r | r, s'⟩ <;> rfl

theorem rm_bind {α β : Type} (m : RM α) (f : α → RM β) : RM.run (m >>= f) = RM.run m >>= fun x => RM.run (f x) := by
  funext s
  show (RM.bind m f s).2 = MM.bind (RM.run m) (fun x => RM.run (f x)) s
  unfold RM.bind MM.bind RM.run
  rcases (m s).2 with ⟨r | r, s'⟩ <;> rfl

theorem rb_pure {α : Type} (x : α) : RB.run (RB.pure x) = BM.pure x := rfl
theorem rm_pure {α : Type} (x : α) : RM.run (RM.pure x) = MM.pure x := rfl
theorem rb_quiet {α : Type} (m : BM α) : RB.run (RB.quiet m) = m := rfl
theorem rm_quiet {α : Type} (m : MM α) : RM.run (RM.quiet m) = m := rfl
theorem rb_tell (evs : List ErrEvent) : RB.run (RB.tell evs) = BM.pure () := rfl
theorem rm_tell (evs : List ErrEvent) : RM.run (RM.tell evs) = MM.pure () := rfl
theorem bm_pure_bind {α β : Type} (x : α) (f : α → BM β) : (BM.pure x >>= f) = f x := rfl
theorem mm_pure_bind {α β : Type} (x : α) (f : α → MM β) : (MM.pure x >>= f) = f x := rfl
theorem rm_ofB {α : Type} (m : RB α) : RM.run (RM.ofB m) = MM.ofB (RB.run m) := rfl
theorem rm_eprint (v : Verbosity) (msg : Str) : RM.run (eprintR v msg) = eprint v msg := rfl

theorem rb_ite {α : Type} (c : Prop) [Decidable c] (x y : RB α) : RB.run (if c then x else y) = if c then RB.run x else RB.run y := by
  split <;> rfl

theorem rm_ite {α : Type} (c : Prop) [Decidable c] (x y : RM α) : RM.run (if c then x else y) = if c then RM.run x else RM.run y := by
  split <;> rfl

theorem bm_raise_bind {α β : Type} (e : Exc) (f : α → BM β) : ((BM.raise e : BM α) >>= f) = BM.raise e := rfl

theorem tickR_run (w : World) (p : Point) : RB.run (tickR w p) = tick w p := by
  unfold tickR tick
  split <;> rfl

theorem tick_cases (w : World) (p : Point) : tick w p = BM.raise (.exit 1) ∨ tick w p = BM.pure () := by
  unfold tick; split
  · exact .inl rfl
  · exact .inr rfl

/-- a command that has a first word -/
def CmdArg.Named (c : CmdArg) : Prop := ∃ x, c.first = .ok x

theorem ensureR_run (w : World) (t : Telling) (cmd : CmdArg) (cwd : Option Path) (input : Option Str) (console : Bool) (h : cmd.Named) :
    RB.run (ensureCommandR w t cmd cwd input console) = ensureCommand w cmd.words cwd input := by
  obtain ⟨c, hc⟩ := h
  unfold ensureCommandR ensureCommand execR exec
  simp only [rb_bind, rb_quiet, rb_tell, rb_pure, tickR_run, bm_pure_bind]
  funext s
  show (BM.bind _ _ s) = (BM.bind _ _ s)
  simp only [bind, BM.bind, BM.get, BM.modify, BM.pure]
  rcases tick_cases w (.run s.hist.length) with ht | ht
  · rw [ht]; rfl
  · rw [ht]
    simp only [BM.pure]
    unfold outcomeOf
    cases hs : w.status s.hist ⟨cmd.words, cwd, input, false, s.makefile⟩ with
    | some st =>
      simp only [ensureTold, doPopen, BM.lift]
      by_cases h0 : st = 0
      · simp [h0, BM.pure]
      · have : (st : Int) ≠ 0 := by omega
        simp [h0, BM.raise]
    | none =>
      cases cwd with
      | none => rfl
      | some p =>
        simp only
        cases t.noStart s.hist ⟨cmd.words, some p, input, false, s.makefile⟩ <;> simp [ensureTold, doPopen, BM.lift, hc, notStarted, BM.raise]

theorem runR_run (w : World) (t : Telling) (cmd : CmdArg) (cwd : Option Path) (input : Option Str) (h : cmd.Named) :
    RB.run (runCommandR w t cmd cwd input) = runCommand w cmd.words cwd input := by
  obtain ⟨c, hc⟩ := h
  unfold runCommandR runCommand execR exec
  simp only [rb_bind, rb_quiet, rb_tell, rb_pure, tickR_run, bm_pure_bind]
  funext s
  show (BM.bind _ _ s) = (BM.bind _ _ s)
  simp only [bind, BM.bind, BM.get, BM.modify, BM.pure]
  rcases tick_cases w (.run s.hist.length) with ht | ht
  · rw [ht]; rfl
  · rw [ht]
    simp only [BM.pure]
    unfold outcomeOf
    cases hs : w.status s.hist ⟨cmd.words, cwd, input, false, s.makefile⟩ with
    | some st => simp [runTold, doPopen, BM.lift, Except.map, BM.pure]
    | none =>
      cases cwd with
      | none => rfl
      | some p =>
        simp only
        cases t.noStart s.hist ⟨cmd.words, some p, input, false, s.makefile⟩ <;>
          simp [runTold, doPopen, BM.lift, hc, notStarted, Except.map, BM.pure]

theorem words_strs (ws : List Str) : (CmdArg.list (ws.map .str)).words = ws := by
  simp [CmdArg.words, CmdWord.word, Function.comp_def]

theorem makeCmd_words (w : World) (b : Builder) (target : Str) : (makeCmd w b target).words = makeArgv w b target := words_strs _

theorem makeCmd_named (w : World) (b : Builder) (target : Str) : (makeCmd w b target).Named := ⟨_, rfl⟩

theorem makeR_run (w : World) (t : Telling) (high : Bool) (b : Builder) (target : Str) (input : Option Str) :
    RB.run (makeR w t high b target input) = make w b target input := by
  unfold makeR make
  rw [rb_bind, ensureR_run _ _ _ _ _ _ (makeCmd_named w b target), makeCmd_words]
  rfl

theorem tryMakeR_run (w : World) (t : Telling) (b : Builder) (target : Str) : RB.run (tryMakeR w t b target) = tryMake w b target := by
  unfold tryMakeR tryMake
  rw [runR_run _ _ _ _ _ (makeCmd_named w b target), makeCmd_words]

theorem askVersionR_run (w : World) (t : Telling) (kdir : Path) : RB.run (askVersionR w t kdir) = firstVersion w kdir := by
  unfold askVersionR firstVersion
  rw [rb_bind, ensureR_run _ _ _ _ _ _ ⟨cs!"make", by decide⟩,
    show (CmdArg.shell cs!"make kernelversion").words = [cs!"make", cs!"kernelversion"] from by decide]
  congr 1
  funext out
  cases versionFromStr out <;> rfl

theorem getVersionR_run (w : World) (t : Telling) (b : Builder) : RB.run (getVersionR w t b) = getVersion w b := by
  unfold getVersionR getVersion
  rw [rb_bind, rb_quiet]
  congr 1
  funext s
  cases s.version with
  | some v => rfl
  | none => exact askVersionR_run w t b.kdir

theorem syncConfigR_run (w : World) (t : Telling) (high : Bool) (b : Builder) : RB.run (syncConfigR w t high b) = syncConfig w b := by
  unfold syncConfigR syncConfig
  rw [rb_bind, getVersionR_run]
  congr 1
  funext v
  rw [rb_ite, makeR_run, makeR_run]

theorem cleanR_run (w : World) (t : Telling) (high : Bool) (b : Builder) : RB.run (cleanR w t high b) = clean w b := by
  unfold cleanR clean
  rw [rb_bind, rb_quiet, makeR_run]

theorem configCmd_words (b : Builder) (args : List Str) :
    (configCmd b args).words = [cs!"./scripts/config", cs!"--file", b.configFile.str] ++ args := by
  simp [configCmd, CmdArg.words, CmdWord.word, Function.comp_def]

theorem performKR_run (w : World) (t : Telling) (b : Builder) : ∀ (rs : List KRec) (es : List KEvent),
    rs.map KRec.kind = es.map KEvent.kind → RB.run (performKR w t b rs) = performK w b es := by
  intro rs
  induction rs with
  | nil =>
    intro es h
    cases es with
    | nil => rfl
    | cons e es => cases h
  | cons r rs ih =>
    intro es h
    cases es with
    | nil => cases h
    | cons e es =>
      simp only [List.map_cons, List.cons.injEq] at h
      obtain ⟨h1, h2⟩ := h
      cases r with
      | script args =>
        cases e <;> simp only [KRec.kind, KEvent.kind] at h1
        · cases h1
          unfold performKR performK
          rw [rb_bind, ensureR_run _ _ _ _ _ _ ⟨_, rfl⟩, configCmd_words]
          congr 1
          funext _
          exact ih es h2
        all_goals exact absurd h1 (by simp)
      | log c =>
        cases e <;> simp only [KRec.kind, KEvent.kind] at h1
        · exact absurd h1 (by simp)
        all_goals
          unfold performKR performK
          rw [rb_bind, rb_tell, bm_pure_bind]
          exact ih es h2

theorem performAllR_run (w : World) (t : Telling) (b : Builder) (p : List KRec × Res Unit) (q : List KEvent × Res Unit)
    (h1 : p.1.map KRec.kind = q.1.map KEvent.kind) (h2 : p.2 = q.2) : RB.run (performAllR w t b p) = performAll w b q := by
  unfold performAllR performAll
  rw [rb_bind, performKR_run w t b _ _ h1, rb_quiet, h2]

theorem applyOptionsR_run (w : World) (t : Telling) (b : Builder) (os : List Str) :
    RB.run (applyOptionsR w t b os) = applyOptions w b os :=
  performAllR_run w t b _ _ (editConfigL_same os).1 (editConfigL_same os).2

theorem applyCheckR_run (w : World) (t : Telling) (b : Builder) (os : Dict Str (List Str)) :
    RB.run (applyOptionsCheckR w t b os) = applyOptionsCheck w b os := by
  unfold applyOptionsCheckR applyOptionsCheck
  rw [rb_ite]
  split
  · rfl
  · rw [rb_bind, rb_quiet]
    congr 1
    funext s
    unfold checkRecs checkEvents
    cases w.readLines s.hist (b.configFile.absolute w.cwd) with
    | none => rfl
    | some lines =>
      exact performAllR_run w t b _ _ (C119_same _ _ _).1 (C119_same _ _ _).2

theorem makeAllR_run (w : World) (t : Telling) (high : Bool) (b : Builder) (ts : List Str) :
    RB.run (makeAllR w t high b ts) = ts.forM fun x => make w b x none := by
  induction ts with
  | nil => rfl
  | cons x xs ih =>
    show RB.run (makeR w t high b x none >>= fun _ => makeAllR w t high b xs) = _
    rw [rb_bind, makeR_run, ih]
    rfl

theorem configureR_run (w : World) (t : Telling) (high : Bool) (b : Builder) : RB.run (configureR w t high b) = configure w b := by
  unfold configureR configure
  simp only [rb_bind, rb_quiet, makeAllR_run, getVersionR_run, applyOptionsR_run, syncConfigR_run, applyCheckR_run]

theorem trySetR_run (w : World) (lvl : Nat) : RB.run (trySetOptLevelR w lvl) = trySetOptLevel w lvl := by
  unfold trySetOptLevelR trySetOptLevel
  simp only [rb_bind, rb_quiet]
  congr 1
  funext s
  congr 1
  funext _
  rcases findFlags true (readText s.makefile) with _ | ⟨pre, post⟩
  · rfl
  · simp only [rb_bind, rb_quiet, tickR_run, rb_pure]

theorem restoreR_run (w : World) (lvl : Nat) : RB.run (restoreMakefileR w lvl) = restoreMakefile w lvl := by
  unfold restoreMakefileR restoreMakefile
  simp only [rb_bind, rb_quiet]
  congr 1
  funext s
  congr 1
  rcases s.backup with _ | _ | ⟨c, cs⟩
  · rfl
  · rfl
  · simp only [rb_bind, rb_quiet, tickR_run]

theorem buildR_run (w : World) (t : Telling) (high : Bool) (b : Builder) (o : Bool) : RB.run (buildR w t high b o) = build w b o := by
  unfold buildR build
  simp only [rb_bind, rb_quiet, rb_ite, trySetR_run, tryMakeR_run, restoreR_run, makeR_run, rb_tell, rb_pure, bm_pure_bind]

theorem gccVersionR_run (w : MWorld) (t : Telling) (cmd : Str) : RM.run (gccVersionR w t cmd) = gccVersion w cmd := by
  unfold gccVersionR gccVersion
  rw [rm_bind, rm_ofB, ensureR_run _ _ _ _ _ _ ⟨_, rfl⟩]
  congr 1
  funext out
  cases splitLines out <;> rfl

theorem gitCheckoutR_run (w : MWorld) (t : Telling) (kdir : Option Path) (ref : Str) :
    RM.run (gitCheckoutR w t kdir ref) = gitCheckout w kdir ref := by
  unfold gitCheckoutR gitCheckout
  rw [rm_bind, rm_ofB, ensureR_run _ _ _ _ _ _ ⟨_, rfl⟩]
  rfl

theorem newBuilderR_run (w : MWorld) (t : Telling) (archName : Option Str) (kdir outdir : Option Path) (cross : Str) :
    RM.run (newBuilderR w t archName kdir outdir cross) = newBuilder w archName kdir outdir cross := by
  unfold newBuilderR newBuilder
  cases kdir with
  | none => rfl
  | some k =>
    cases archName with
    | none => rfl
    | some n => simp only [rm_bind, rm_ofB, askVersionR_run, rm_quiet, rm_pure]

theorem loadElfR_run (w : MWorld) (t : Telling) (vmlinux : Path) : RM.run (loadElfR w t vmlinux) = loadElf w vmlinux := by
  unfold loadElfR loadElf
  rw [rm_bind, rm_quiet]
  congr 1
  funext s
  cases w.content s.b.hist vmlinux with
  | none => rfl
  | some data =>
    have hr : ∀ o p, RB.run (ensureCommandR w.toWorld t (.list [.str cs!"readelf", .str o, .path p]) none none false) =
        ensureCommand w.toWorld [cs!"readelf", o, p] none none := fun o p => ensureR_run _ _ _ _ _ _ ⟨_, rfl⟩
    simp only [rm_bind, rm_tell, mm_pure_bind, rm_quiet, rm_ofB, rm_ite, hr]

theorem newAnalysisR_run (w : MWorld) (t : Telling) (archName : Option Str) (vmlinux : Path) (kdir : Option Path) :
    RM.run (newAnalysisR w t archName vmlinux kdir) = newAnalysis w archName vmlinux kdir := by
  unfold newAnalysisR newAnalysis
  simp only [rm_bind, loadElfR_run, rm_quiet, rm_pure]

theorem eprintsR_run (v : Verbosity) (ls : List Str) : RM.run (eprintsR v ls) = eprints v ls := by
  induction ls with
  | nil => rfl
  | cons l ls ih =>
    unfold eprintsR eprints
    rw [rm_bind, rm_eprint, ih]

theorem catchInitR_run {α : Type} (w : MWorld) (v : Verbosity) (archName : Option Str) (d : Option (Kind × Bool × List Str))
    (m : RM α) : RM.run (catchInitR w v archName d m) = catchInit w v archName d (RM.run m) := by
  funext s
  show (catchInitR w v archName d m s).2 = _
  unfold catchInitR catchInit
  rw [show RM.run m s = (m s).2 from rfl]
  generalize (m s).1 = evs
  generalize (m s).2 = r
  rcases r with ⟨e | x, s'⟩
  · simp only
    cases initMessages w.prog archName d e with
    | none => rfl
    | some ls =>
      simp only
      have := congrFun (rm_bind (eprintsR v ls) (fun _ => RM.quiet (MM.raise (.exit 1) : MM α))) s'
      rw [eprintsR_run] at this
      exact this
  · rfl

theorem mainBuildR_run (w : MWorld) (t : Telling) (v : Verbosity) (args : Args) (archName : Option Str) :
    RM.run (mainBuildR w t v args archName) = mainBuild w v args archName := by
  unfold mainBuildR mainBuild
  simp only [rm_bind, rm_quiet]
  congr 1
  funext s
  cases outState w s.b.hist (pathOf args.out) with
  | notADirectory => simp only [rm_bind, rm_eprint, rm_pure]
  | mkdirFails r => simp only [rm_bind, rm_eprint, rm_pure]
  | usable =>
    have hb : RM.run (tookR t) = MM.pure () := rfl
    simp only [rm_bind, rm_quiet, rm_ite, rm_eprint, rm_pure, gccVersionR_run, catchInitR_run, newBuilderR_run, rm_ofB, cleanR_run,
      getVersionR_run, configureR_run, buildR_run, hb, mm_pure_bind]

theorem extractR_run (w : MWorld) (t : Telling) (k : Analysis) (vmlinux : Path) (kdir rdir : Option Path) (s : MState) :
    (extractR w t k vmlinux kdir rdir s).2 =
      (extractSyscalls k.arch k.elf k.version (kenvOf w s.b.hist k.arch k.elf vmlinux kdir rdir), s) := by
  unfold extractR
  simp only
  rw [C118_same]
  rfl

theorem autoCheckoutR_run (w : MWorld) (t : Telling) (v : Verbosity) (args : Args) (k : Analysis) :
    RM.run (autoCheckoutR w t v args k) = autoCheckout w v args k := by
  unfold autoCheckoutR autoCheckout
  simp only [rm_bind, rm_quiet, rm_ite, rm_eprint, rm_pure, gitCheckoutR_run]

theorem outputR_run (w : MWorld) (k : KernelInfo) (f : Format) :
    RM.run (outputR w k f) = MM.lift (outputSyscalls w.jinja w.css w.js k f) := by
  unfold outputR
  rw [rm_bind, rm_tell, mm_pure_bind, rm_quiet]

theorem mainReportR_run (w : MWorld) (t : Telling) (v : Verbosity) (args : Args) (k : Analysis) (vmlinux : Path) :
    RM.run (mainReportR w t v args k vmlinux) = mainReport w v args k vmlinux := by
  have he : RM.run (extractR w t k vmlinux (pathOf args.kdir) (pathOf args.remap)) =
      (MM.get >>= fun s => MM.lift (extractSyscalls k.arch k.elf k.version
        (kenvOf w s.b.hist k.arch k.elf vmlinux (pathOf args.kdir) (pathOf args.remap)))) := by
    funext s
    exact extractR_run w t k vmlinux _ _ s
  unfold mainReportR mainReport
  simp only [rm_bind, he, rm_quiet, rm_ite, rm_pure, eprintsR_run, outputR_run]
  funext s
  rfl

theorem mainAnalyzeR_run (w : MWorld) (t : Telling) (v : Verbosity) (args : Args) (archName : Option Str) :
    RM.run (mainAnalyzeR w t v args archName) = mainAnalyze w v args archName := by
  unfold mainAnalyzeR mainAnalyze
  simp only [rm_ite, rm_bind, rm_eprint, rm_pure]
  split
  · rfl
  · cases vmlinuxPath args with
    | none => rfl
    | some vm =>
      simp only [rm_bind, rm_quiet, rm_ite, rm_eprint, rm_pure, catchInitR_run, newAnalysisR_run, autoCheckoutR_run, mainReportR_run]

theorem mainBodyR_run (w : MWorld) (t : Telling) (help : Str) (args : Args) : RM.run (mainBodyR w t help args) = main w help args := by
  unfold mainBodyR main mainRunR mainRun
  simp only [rm_ite, rm_bind, rm_eprint, rm_pure, gitCheckoutR_run, mainBuildR_run, mainAnalyzeR_run]

end Verif
