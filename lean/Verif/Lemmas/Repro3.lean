import Verif.Lemmas.Repro2
/-! # The whole standard error and the iteration order of sets -/
set_option autoImplicit false

namespace Verif
open Spec

variable (w : MWorld) (ni : List Symbol → List Symbol) (cands : List Insn → List Insn) (numbers : List Nat → List Nat)

/-- the messages and the result of an extraction -/
theorem extractR_rehash (hw : Pythonic w) (hw' : Pythonic (rehash w ni cands numbers)) (t : Telling) (k : Analysis) (p : Path)
    (kdir rdir : Option Path) (h : List Run) (hl : LoadedFrom w h p k.elf) (hni : NiAlike k.elf) (s : MState) :
    (extractR (rehash w ni cands numbers) t k p kdir rdir s).2 = (extractR w t k p kdir rdir s).2 ∧
    ((k.arch.adjustAbi k.elf).tableName ≠ none ∨ (k.arch.adjustAbi k.elf).kind ≠ .x86 →
      extractR (rehash w ni cands numbers) t k p kdir rdir s = extractR w t k p kdir rdir s) ∧
    (∀ scs, scs ≠ [] → (extractR w t k p kdir rdir s).2.1 = .ok scs →
      (extractR (rehash w ni cands numbers) t k p kdir rdir s).1.Perm (extractR w t k p kdir rdir s).1) := by
  obtain ⟨data, r1, r2, _, _, _, _, _, hload, _⟩ := hl
  obtain ⟨h1, h2, h3⟩ := whole_rehash t.insn t.symbol (surroundingsOf w s.b.hist p kdir rdir)
    (surroundingsOf (rehash w ni cands numbers) s.b.hist p kdir rdir) k.arch k.elf k.version rfl hw.orders hw'.orders hw.set hw'.set rfl rfl rfl
    fun x y hx hy hv => ⟨hni x y hx hy hv, ni_real data _ _ k.elf hload x y hx hy hv⟩
  unfold extractR
  dsimp only
  refine ⟨by rw [h1], fun ht => by rw [h2 ht], fun scs hne hs => ?_⟩
  rw [h1, hs]
  exact ((h3 scs hne hs).map _).append_right _

theorem rm_bind_at {α β : Type} (m : RM α) (f : α → RM β) (s s' : MState) (x : α) (h : (m s).2 = (.ok x, s')) :
    (m >>= f) s = ((m s).1 ++ (f x s').1, (f x s').2) := by
  show RM.bind m f s = _
  unfold RM.bind
  rw [h]

theorem rm_bind_error {α β : Type} (m : RM α) (f : α → RM β) (s s' : MState) (x : Exc) (h : (m s).2 = (.error x, s')) :
    (m >>= f) s = ((m s).1, .error x, s') := by
  show RM.bind m f s = _
  unfold RM.bind
  rw [h]

/-- the two runs differ in nothing but the messages of the extraction -/
def OnlyExtraction (w' : MWorld) (t : Telling) (args : Args) (n : Option Str) (m' m : List ErrEvent × (Res Nat × MState)) : Prop :=
  m' = m ∨ ∃ (h : List Run) (p : Path) (k : Analysis) (s1 : MState) (pre post : List ErrEvent) (z : Res Nat × MState),
    vmlinuxPath args = some p ∧ LoadedFrom w h p k.elf ∧ GoodKernel n k.elf k.arch k.version ∧
    m' = (pre ++ (extractR w' t k p (pathOf args.kdir) (pathOf args.remap) s1).1 ++ post, z) ∧
    m = (pre ++ (extractR w t k p (pathOf args.kdir) (pathOf args.remap) s1).1 ++ post, z) ∧
    (z.1 = .ok 0 → ∃ scs, scs ≠ [] ∧ (extractR w t k p (pathOf args.kdir) (pathOf args.remap) s1).2.1 = .ok scs)

theorem mainReportR_only (hw : Pythonic w) (hw' : Pythonic (rehash w ni cands numbers)) (t : Telling) (v : Verbosity) (args : Args)
    (n : Option Str) (k : Analysis) (p : Path) (h : List Run) (hv : vmlinuxPath args = some p) (hl : LoadedFrom w h p k.elf)
    (hg : GoodKernel n k.elf k.arch k.version) (hni : NiAlike k.elf) (s : MState) :
    OnlyExtraction w (rehash w ni cands numbers) t args n (mainReportR (rehash w ni cands numbers) t v args k p s) (mainReportR w t v args k p s) := by
  obtain ⟨h1, _, _⟩ := extractR_rehash w ni cands numbers hw hw' t k p (pathOf args.kdir) (pathOf args.remap) h hl hni s
  unfold mainReportR
  rw [show outputR (rehash w ni cands numbers) = outputR w from rfl]
  rcases hx : (extractR w t k p (pathOf args.kdir) (pathOf args.remap) s).2 with ⟨r, s1⟩
  cases r with
  | error x =>
    rw [rm_bind_error _ _ s s1 x hx, rm_bind_error _ _ s s1 x (h1.trans hx)]
    exact .inr ⟨h, p, k, s, [], [], (.error x, s1), hv, hl, hg, by simp, by simp, fun h => absurd h (by simp)⟩
  | ok scs =>
    rw [rm_bind_at _ _ s s1 scs hx, rm_bind_at _ _ s s1 scs (h1.trans hx)]
    refine .inr ⟨h, p, k, s, [], _, _, hv, hl, hg, rfl, rfl, ?_⟩
    intro hz
    refine ⟨scs, ?_, by rw [hx]⟩
    rintro rfl
    exact absurd hz (by simp [RM.pure])

theorem OnlyExtraction.after {w : MWorld} {w' : MWorld} {t : Telling} {args : Args} {n : Option Str}
    {m' m : List ErrEvent × (Res Nat × MState)} (h : OnlyExtraction w w' t args n m' m) (evs : List ErrEvent) :
    OnlyExtraction w w' t args n (evs ++ m'.1, m'.2) (evs ++ m.1, m.2) := by
  rcases h with rfl | ⟨h, p, k, s1, pre, post, z, h1, h2, h3, h4, h5, h6⟩
  · exact .inl rfl
  · refine .inr ⟨h, p, k, s1, evs ++ pre, post, z, h1, h2, h3, ?_, ?_, h6⟩
    · rw [h4]; simp only [List.append_assoc]
    · rw [h5]; simp only [List.append_assoc]

theorem rm_bind_only {w : MWorld} {w' : MWorld} {t : Telling} {args : Args} {n : Option Str} {α : Type} (m : RM α) (f' f : α → RM Nat)
    (s : MState) (h : ∀ x s', (m s).2 = (.ok x, s') → OnlyExtraction w w' t args n (f' x s') (f x s')) :
    OnlyExtraction w w' t args n ((m >>= f') s) ((m >>= f) s) := by
  rcases hx : (m s).2 with ⟨r, s1⟩
  cases r with
  | error x => rw [rm_bind_error _ _ s s1 x hx, rm_bind_error _ _ s s1 x hx]; exact .inl rfl
  | ok y =>
    rw [rm_bind_at _ _ s s1 y hx, rm_bind_at _ _ s s1 y hx]
    exact OnlyExtraction.after (h y s1 hx) _

theorem mainAnalyzeR_only (hw : Pythonic w) (hw' : Pythonic (rehash w ni cands numbers)) (t : Telling) (v : Verbosity) (args : Args)
    (n : Option Str) (hni : ∀ h p e, vmlinuxPath args = some p → LoadedFrom w h p e → NiAlike e) (s : MState) :
    OnlyExtraction w (rehash w ni cands numbers) t args n (mainAnalyzeR (rehash w ni cands numbers) t v args n s) (mainAnalyzeR w t v args n s) := by
  unfold mainAnalyzeR
  dsimp only
  split
  · exact .inl rfl
  cases hp : vmlinuxPath args with
  | none => exact .inl rfl
  | some p =>
    dsimp only
    refine rm_bind_only _ _ _ s fun x s' hs => ?_
    obtain ⟨rfl, rfl⟩ : s = x ∧ s = s' := by
      have h1 : (Except.ok s, s) = ((Except.ok x : Res MState), s') := hs
      exact ⟨Except.ok.inj (congrArg Prod.fst h1), congrArg Prod.snd h1⟩
    rw [show (rehash w ni cands numbers).isFile = w.isFile from rfl, show (rehash w ni cands numbers).available = w.available from rfl]
    split
    · exact .inl rfl
    · split
      · exact .inl rfl
      · rw [show catchInitR (rehash w ni cands numbers) v n (detectedArch (rehash w ni cands numbers) p s)
          (newAnalysisR (rehash w ni cands numbers) t n p (pathOf args.kdir)) =
          catchInitR w v n (detectedArch w p s) (newAnalysisR w t n p (pathOf args.kdir)) from rfl]
        refine rm_bind_only _ _ _ s fun k s1 hk => ?_
        have hrun : catchInit w v n (detectedArch w p s) (newAnalysis w n p (pathOf args.kdir)) s = (.ok k, s1) := by
          rw [← newAnalysisR_run w t, ← catchInitR_run]
          exact hk
        obtain ⟨hload, hgood⟩ := newAnalysis_ok w n p _ s s1 k (catch_ok w v n _ hrun)
        refine rm_bind_only _ _ _ s1 fun _ s2 _ => ?_
        rw [show autoCheckoutR (rehash w ni cands numbers) t v args k = autoCheckoutR w t v args k from rfl]
        refine rm_bind_only _ _ _ s2 fun _ s3 _ => ?_
        exact mainReportR_only w ni cands numbers hw hw' t v args n k p _ hp hload hgood (hni _ _ _ hp hload) s3

theorem mainR_only (hw : Pythonic w) (hw' : Pythonic (rehash w ni cands numbers)) (t : Telling) (help : Str) (args : Args)
    (hni : ∀ h p e, vmlinuxPath args = some p → LoadedFrom w h p e → NiAlike e) (s : MState) :
    OnlyExtraction w (rehash w ni cands numbers) t args (args.arch.map lower) (mainR (rehash w ni cands numbers) t help args s) (mainR w t help args s) := by
  have hbody : OnlyExtraction w (rehash w ni cands numbers) t args (args.arch.map lower)
      (mainBodyR (rehash w ni cands numbers) t help args s) (mainBodyR w t help args s) := by
    unfold mainBodyR
    dsimp only
    split
    · exact .inl rfl
    split
    · exact .inl rfl
    split
    · exact .inl rfl
    split
    · exact .inl rfl
    unfold mainRunR
    rw [show gitCheckoutR (rehash w ni cands numbers) = gitCheckoutR w from rfl,
      show mainBuildR (rehash w ni cands numbers) = mainBuildR w from rfl]
    have key : ∀ s2, OnlyExtraction w (rehash w ni cands numbers) t args (args.arch.map lower)
        ((if args.clean || args.config || args.build then mainBuildR w t (setupLogging args.quiet args.verbose) args (args.arch.map lower)
          else mainAnalyzeR (rehash w ni cands numbers) t (setupLogging args.quiet args.verbose) args (args.arch.map lower)) s2)
        ((if args.clean || args.config || args.build then mainBuildR w t (setupLogging args.quiet args.verbose) args (args.arch.map lower)
          else mainAnalyzeR w t (setupLogging args.quiet args.verbose) args (args.arch.map lower)) s2) := by
      intro s2
      split
      · exact .inl rfl
      · exact mainAnalyzeR_only w ni cands numbers hw hw' t _ args _ hni s2
    dsimp only
    split
    · exact rm_bind_only _ _ _ s fun _ s2 _ => rm_bind_only _ _ _ s2 fun _ s3 _ => key s3
    · exact rm_bind_only _ _ _ s fun _ s2 _ => key s2
  unfold mainR
  dsimp only
  rcases hbody with h | ⟨h, p, k, s1, pre, post, z, h1, h2, h3, h4, h5, h6⟩
  · rw [h]; exact .inl rfl
  · rw [h4, h5]
    dsimp only
    refine .inr ⟨h, p, k, s1, pre, post ++ (match z.1 with
      | Except.ok _ => []
      | Except.error (Exc.exit _) => []
      | Except.error e => [ErrEvent.uncaught (t.traceback e)]), z, h1, h2, h3, ?_, ?_, h6⟩
    · rw [← List.append_assoc]; rfl
    · rw [← List.append_assoc]; rfl

end Verif
