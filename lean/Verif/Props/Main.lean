import Verif.Lemmas.Main5
import Verif.Props.Location
import Verif.Props.Build
/-! # The command line program (C73-C77, C83-C85) -/
set_option autoImplicit false

namespace Verif
open Spec

/-- a world where every command works, with one image, for the examples -/
def mainWorld (version : Str) (image : Option Bytes) : MWorld where
  toWorld := okWorld version
  prog := cs!"systrack"
  outDir _ _ := .usable
  isFile _ _ := image.isSome
  available _ _ := true
  content _ _ := image
  locEnv _ := smallWorld
  niOrder := id
  x86 := ⟨fun _ _ _ => [], id, id⟩
  jinja := true
  css := []
  js := []

/-! ## C73 -/

/-- C73: command lines that make no sense end with status 1 and a message; nothing is run and nothing is touched. -/
theorem C73_invalid (w : MWorld) (help : Str) (args : Args) (s : MState) (h : Invalid args) (hh : ¬ AsksForHelp args) :
    (main w help args s).1 = .ok 1 ∧ Untouched s (main w help args s).2 ∧
    (Talkative args → ∃ ls, (main w help args s).2.err = s.err ++ ls ∧ ls ≠ [] ∧ ∀ l ∈ ls, l ≠ []) := by
  obtain ⟨ls, h1, h2, h3⟩ := main_invalid w help args s h hh
  rw [h3]
  refine ⟨rfl, ?_, fun ht => ⟨ls, ?_, h1, h2⟩⟩
  · unfold MState.sayAll
    split <;> exact ⟨rfl, rfl, rfl, rfl⟩
  · unfold MState.sayAll
    rw [(talkative args).1 ht]
    rfl

example : Invalid { kdir := some cs!"linux", build := true } ∧ ¬ AsksForHelp { kdir := some cs!"linux", build := true } := by
  refine ⟨.noArch ?_ (Or.inr rfl), ?_⟩
  · rintro ⟨s, h, -⟩; cases h
  · rintro ⟨a, h, -⟩; cases h

/-- C73: asking for the list of architectures ends with status 0, showing it; nothing is run and nothing is touched. -/
theorem C73_help (w : MWorld) (help : Str) (args : Args) (s : MState) (h : AsksForHelp args) :
    (main w help args s).1 = .ok 0 ∧ Untouched s (main w help args s).2 ∧
    (Talkative args → (main w help args s).2.err = s.err ++ [help]) := by
  rw [main_help w help args s h]
  exact ⟨rfl, untouched_say _ _ (untouched_refl s), fun ht => say_err _ _ _ ((talkative args).1 ht)⟩

example : AsksForHelp { arch := some cs!"HELP", build := true } := ⟨_, rfl, Or.inl rfl⟩

/-! ## C74 -/

theorem append_right_inj {α : Type} {a b c : List α} (h : a ++ b = a ++ c) : b = c := List.append_cancel_left h

/-- not `git` -/
theorem runs_ne {a b : Str} {r : Run} (h : Runs a r) (hab : a ≠ b) : ¬ Runs b r := by
  unfold Runs at *
  rw [h]
  intro hh; injection hh with hh; exact hab hh

theorem gcc_ne_git (args : Args) : gccName args ≠ cs!"git" := by
  unfold gccName
  intro h
  have := congrArg List.getLast? h
  simp at this

/-- the commands after the explicit checkout -/
theorem tail_hist (w : MWorld) (v : Verbosity) (args : Args) (n : Option Str) (s : MState) :
    ∃ A G, (mainTail w v args n s).2.b.hist = s.b.hist ++ A ++ G ∧
      (∀ r ∈ A, ¬ Runs cs!"git" r) ∧
      (BuildMode args → (∀ r ∈ A, Runs cs!"make" r ∨ Runs cs!"./scripts/config" r ∨ Runs (gccName args) r) ∧ G = []) ∧
      (args.config = false → args.build = false → args.clean = true → ∀ r ∈ A, Runs cs!"make" r) ∧
      (¬ BuildMode args → ∀ r ∈ A, Runs cs!"readelf" r) ∧
      (G = [] ∨ ∃ r ref p e ver, G = [r] ∧ args.checkout = some cs!"auto" ∧ ¬ BuildMode args ∧ vmlinuxPath args = some p ∧
        LoadedFrom w s.b.hist p e ∧ versionFromVmlinux e = .ok (some ver) ∧ versionTag ver = .ok ref ∧
        r.argv = [cs!"git", cs!"checkout", ref] ∧ r.cwd = pathOf args.kdir) ∧
      ((mainTail w v args n s).2.out ≠ s.out → args.checkout = some cs!"auto" → G ≠ []) := by
  by_cases hb : BuildMode args
  · rw [tail_build w v args n hb]
    obtain ⟨A, h1, h2⟩ := emits_build w v args n s
    refine ⟨A, [], by simpa using h1, ?_, fun _ => ⟨?_, rfl⟩, ?_, fun h => absurd hb h, Or.inl rfl, fun h => absurd (mute_build w v args n s) h⟩
    · intro r hr
      rcases h2 r hr with (h | h) | h
      · exact runs_ne h (by decide)
      · exact runs_ne h (by decide)
      · exact runs_ne h (gcc_ne_git args)
    · intro r hr
      rcases h2 r hr with (h | h) | h <;> simp [h]
    · intro hc hbu _
      obtain ⟨A', g1, g2⟩ := emits_clean w v args n hc hbu s
      rw [append_right_inj (h1.symm.trans g1)]
      exact g2
  · rw [tail_analyze w v args n hb]
    obtain ⟨-, ⟨A, G, h1, h2, h3, h4⟩, -, -, -⟩ := analyze_spec w v args n s
    refine ⟨A, G, h1, fun r hr => runs_ne (h2 r hr) (by decide), fun h => absurd h hb, ?_, fun _ => h2, ?_, h4⟩
    · intro _ _ hc; exact absurd (Or.inr (Or.inr hc)) hb
    · rcases h3 with h3 | ⟨r, p, e, a, ver, ref, g1, g2, g3, g4, g5, g6, g7, g8⟩
      · exact Or.inl h3
      · exact Or.inr ⟨r, ref, p, e, ver, g1, g2, hb, g3, g4, g5.version, g6, g7, g8⟩

/-- C74: what `main` runs, for every command line and every environment (`R` are the commands run):
`git` runs at most once, and that is a checkout in KDIR of the reference asked for; without `--checkout` it does not run;
an explicit reference is checked out before anything else; without `--build`, `--config` and `--clean` nothing but
`readelf` (and that `git checkout`) runs; `--clean` alone only runs `make` besides. -/
theorem C74_commands (w : MWorld) (help : Str) (args : Args) (s : MState) :
    ∃ R, (main w help args s).2.b.hist = s.b.hist ++ R ∧
      (∀ r ∈ R, Runs cs!"git" r → ∃ k ref, args.kdir = some k ∧ IsCheckout k ref r ∧ Requested w args ref) ∧
      (∀ A r B, R = A ++ r :: B → Runs cs!"git" r → ∀ r' ∈ A ++ B, ¬ Runs cs!"git" r') ∧
      (¬ Given args.checkout → ∀ r ∈ R, ¬ Runs cs!"git" r) ∧
      (∀ ref, args.checkout = some ref → ref ≠ [] → ref ≠ cs!"auto" → ¬ Invalid args →
        ∃ k r R', args.kdir = some k ∧ R = r :: R' ∧ IsCheckout k ref r) ∧
      (args.checkout = some cs!"auto" → (main w help args s).2.out ≠ s.out → ∃ r ∈ R, Runs cs!"git" r) ∧
      (¬ BuildMode args → ∀ r ∈ R, Runs cs!"readelf" r ∨ Runs cs!"git" r) ∧
      (args.clean = true → args.config = false → args.build = false → ∀ r ∈ R, Runs cs!"make" r ∨ Runs cs!"git" r) ∧
      (∀ r ∈ R, Runs cs!"git" r ∨ Runs cs!"readelf" r ∨ Runs cs!"make" r ∨ Runs cs!"./scripts/config" r ∨
        Runs (args.cross.getD [] ++ cs!"gcc") r) := by
  by_cases hinv : Invalid args
  · have hu : (main w help args s).2.b = s.b ∧ (main w help args s).2.out = s.out := by
      by_cases hh : AsksForHelp args
      · exact ⟨(C73_help w help args s hh).2.1.1, (C73_help w help args s hh).2.1.2.2.1⟩
      · exact ⟨(C73_invalid w help args s hinv hh).2.1.1, (C73_invalid w help args s hinv hh).2.1.2.2.1⟩
    refine ⟨[], by rw [hu.1]; simp, by simp, by simp, by simp, fun _ _ _ _ h => absurd hinv h, fun _ h => absurd hu.2 h, by simp, by simp, by simp⟩
  rw [main_valid w help args hinv]
  generalize setupLogging args.quiet args.verbose = v
  generalize args.arch.map lower = n
  have git : ∀ {r : Run} {ref : Str}, r.argv = [cs!"git", cs!"checkout", ref] → Runs cs!"git" r := by
    intro r ref h; unfold Runs; rw [h]; rfl
  have hkdir : Given args.checkout → ∃ k, args.kdir = some k ∧ pathOf args.kdir = some (parsePath k) := by
    intro hg
    by_cases hk : Given args.kdir
    · obtain ⟨k, hk, hne⟩ := hk
      exact ⟨k, hk, by rw [hk]; exact pathOf_some hne⟩
    · exact absurd (.noKdir hk (Or.inl hg)) hinv
  have hauto : Given (some cs!"auto") := ⟨_, rfl, by simp⟩
  by_cases hex : ∃ ref, ExplicitRef args ref
  · obtain ⟨ref, href⟩ := hex
    obtain ⟨k, hk, hkp⟩ := hkdir ⟨ref, href.1, href.2.1⟩
    have hna : args.checkout ≠ some cs!"auto" := by
      rw [href.1]; intro h; injection h with h; exact href.2.2 h
    obtain ⟨r, s1, a1, a2, a3, a4, a5, a6⟩ := run_explicit w v args n s ref href
    have hco : IsCheckout k ref r := ⟨a1, by rw [a2, hkp]⟩
    -- the commands that follow
    obtain ⟨T, t1, t2, t3, t4, t5⟩ : ∃ T, (mainRun w v args n s).2.b.hist = s.b.hist ++ (r :: T) ∧ (∀ r ∈ T, ¬ Runs cs!"git" r) ∧
        (¬ BuildMode args → ∀ r ∈ T, Runs cs!"readelf" r) ∧
        (args.clean = true → args.config = false → args.build = false → ∀ r ∈ T, Runs cs!"make" r) ∧
        (∀ r ∈ T, Runs cs!"readelf" r ∨ Runs cs!"make" r ∨ Runs cs!"./scripts/config" r ∨ Runs (gccName args) r) := by
      rcases a6 with h | ⟨e, h⟩
      · obtain ⟨A, G, b1, b2, b3, b4, b5, b6, -⟩ := tail_hist w v args n s1
        have hG : G = [] := by
          rcases b6 with h | ⟨_, _, _, _, _, _, h, _⟩
          · exact h
          · exact absurd h hna
        subst hG
        refine ⟨A, by rw [h, b1, a3]; simp, b2, b5, fun x y z => b4 y z x, ?_⟩
        intro r' hr'
        by_cases hb : BuildMode args
        · exact Or.inr ((b3 hb).1 r' hr')
        · exact Or.inl (b5 hb r' hr')
      · exact ⟨[], by rw [h, a3], by simp, by simp, by simp, by simp⟩
    refine ⟨r :: T, t1, ?_, ?_, ?_, ?_, fun h => absurd h hna, ?_, ?_, ?_⟩
    · intro r' hr' hg
      rcases List.mem_cons.1 hr' with rfl | hr'
      · exact ⟨k, ref, hk, hco, Or.inl href⟩
      · exact absurd hg (t2 r' hr')
    · intro A r' B hAB hg r'' hr''
      cases A with
      | nil =>
        rw [List.nil_append] at hAB hr''
        injection hAB with _ hAB
        subst hAB
        exact t2 r'' hr''
      | cons a A =>
        injection hAB with _ hAB
        exact absurd hg (t2 r' (by rw [hAB]; simp))
    · intro h; exact absurd ⟨ref, href.1, href.2.1⟩ h
    · intro ref' h1 _ _ _
      rw [href.1] at h1
      injection h1 with h1
      subst h1
      exact ⟨k, r, T, hk, rfl, hco⟩
    · intro hb r' hr'
      rcases List.mem_cons.1 hr' with rfl | hr'
      · exact Or.inr (git a1)
      · exact Or.inl (t3 hb r' hr')
    · intro x y z r' hr'
      rcases List.mem_cons.1 hr' with rfl | hr'
      · exact Or.inr (git a1)
      · exact Or.inl (t4 x y z r' hr')
    · intro r' hr'
      rcases List.mem_cons.1 hr' with rfl | hr'
      · exact Or.inl (git a1)
      · exact Or.inr (t5 r' hr')
  · rw [run_none w v args n s hex]
    obtain ⟨A, G, b1, b2, b3, b4, b5, b6, b7⟩ := tail_hist w v args n s
    have hA : ∀ r ∈ A, Runs cs!"readelf" r ∨ Runs cs!"make" r ∨ Runs cs!"./scripts/config" r ∨ Runs (gccName args) r := by
      intro r hr
      by_cases hb : BuildMode args
      · exact Or.inr ((b3 hb).1 r hr)
      · exact Or.inl (b5 hb r hr)
    refine ⟨A ++ G, by rw [b1, List.append_assoc], ?_⟩
    rcases b6 with hG | ⟨r, ref, p, e, ver, hG, c1, c2, c3, c4, c5, c6, c7, c8⟩
    · subst hG
      rw [List.append_nil]
      refine ⟨fun r hr h => absurd h (b2 r hr), ?_, fun _ => b2, ?_, ?_, fun hb r hr => Or.inl (b5 hb r hr), fun x y z r hr => Or.inl (b4 y z x r hr), fun r hr => Or.inr (hA r hr)⟩
      · intro A' r B hAB hg
        exact absurd hg (b2 r (by rw [hAB]; simp))
      · intro ref h1 h2 h3; exact absurd ⟨ref, h1, h2, h3⟩ hex
      · intro ha ho; exact absurd rfl (b7 ho ha)
    · subst hG
      obtain ⟨k, hk, hkp⟩ := hkdir (by rw [c1]; exact hauto)
      refine ⟨?_, ?_, ?_, ?_, fun _ _ => ⟨r, by simp, git c7⟩, ?_, ?_, ?_⟩
      · intro r' hr' hg
        rcases List.mem_append.1 hr' with hr' | hr'
        · exact absurd hg (b2 r' hr')
        · rw [List.mem_singleton] at hr'
          subst hr'
          exact ⟨k, ref, hk, ⟨c7, by rw [c8, hkp]⟩, Or.inr ⟨c1, c2, p, e, ver, _, c3, c4, c5, c6⟩⟩
      · intro A' r' B hAB hg r'' hr''
        rcases List.append_eq_append_iff.1 hAB with ⟨C, e1, e2⟩ | ⟨C, e1, e2⟩
        · cases C with
          | nil =>
            rw [List.append_nil] at e1
            subst e1
            rw [List.nil_append] at e2
            injection e2 with e3 e4
            subst e4
            rw [List.append_nil] at hr''
            exact b2 r'' hr''
          | cons c C =>
            injection e2 with e3 e4
            have := congrArg List.length e4
            simp at this
        · cases C with
          | nil =>
            rw [List.append_nil] at e1
            subst e1
            rw [List.nil_append] at e2
            injection e2 with e3 e4
            subst e4
            rw [List.append_nil] at hr''
            exact b2 r'' hr''
          | cons c C =>
            injection e2 with e3 e4
            subst e3
            exact absurd hg (b2 r' (by rw [e1]; simp))
      · intro h; rw [c1] at h; exact absurd hauto h
      · intro ref' h1 h2 h3; exact absurd ⟨ref', h1, h2, h3⟩ hex
      · intro hb r' hr'
        rcases List.mem_append.1 hr' with hr' | hr'
        · exact Or.inl (b5 hb r' hr')
        · rw [List.mem_singleton] at hr'; subst hr'; exact Or.inr (git c7)
      · intro x; exact absurd (Or.inr (Or.inr x)) c2
      · intro r' hr'
        rcases List.mem_append.1 hr' with hr' | hr'
        · exact Or.inr (hA r' hr')
        · rw [List.mem_singleton] at hr'; subst hr'; exact Or.inl (git c7)

example : ¬ Invalid { kdir := some cs!"linux", vmlinux := some cs!"vmlinux", checkout := some cs!"v5.1" } := by
  rintro (⟨a, h, -⟩ | h | h | h)
  · cases h
  · exact absurd ⟨_, rfl, by simp⟩ h
  · exact absurd ⟨_, rfl, by simp⟩ h
  · rename_i h1; simp at h1

/-- C74: FALSE of the code as a whole: `--checkout auto` together with `--build`, `--config` or `--clean` is ignored, no
`git` is ever run, and nothing says so. -/
theorem C74_auto_ignored (w : MWorld) (help : Str) (args : Args) (s : MState) (ha : args.checkout = some cs!"auto")
    (hb : BuildMode args) : ∃ R, (main w help args s).2.b.hist = s.b.hist ++ R ∧ ∀ r ∈ R, ¬ Runs cs!"git" r := by
  obtain ⟨R, h1, h2, -⟩ := C74_commands w help args s
  refine ⟨R, h1, fun r hr hg => ?_⟩
  obtain ⟨k, ref, -, -, h | h⟩ := h2 r hr hg
  · rw [ha] at h
    obtain ⟨h, -, h'⟩ := h
    injection h with h
    exact h' h.symm
  · exact h.2.1 hb

/-- C74: the witness: everything works, the kernel is configured with status 0, yet the checkout asked for was not done. -/
theorem C74_checkout_refuted : ¬ ∀ (w : MWorld) (help : Str) (args : Args) (s : MState), ¬ Invalid args → Given args.checkout →
    (main w help args s).1 = .ok 0 → ∃ r ∈ (main w help args s).2.b.hist, Runs cs!"git" r := by
  intro h
  have hv : ¬ Invalid { kdir := some cs!"linux", arch := some cs!"x86-64", clean := true, checkout := some cs!"auto" } := by
    rintro (⟨a, h, h'⟩ | h | h | h)
    · injection h with h
      subst h
      exact h' ((archName_iff _).2 (by decide +kernel))
    · exact absurd ⟨_, rfl, by simp⟩ h
    · exact absurd ⟨_, rfl, by simp⟩ h
    · rename_i h1; simp at h1
  obtain ⟨r, hr, hg⟩ := h (mainWorld cs!"5.10.0\n" none) [] _ {} hv ⟨_, rfl, by simp⟩ (by decide +kernel)
  obtain ⟨R, h1, h2⟩ := C74_auto_ignored (mainWorld cs!"5.10.0\n" none) []
    { kdir := some cs!"linux", arch := some cs!"x86-64", clean := true, checkout := some cs!"auto" } {} rfl (Or.inr (Or.inr rfl))
  rw [h1] at hr
  exact h2 r (by simpa using hr) hg

/-! ## C75 -/

/-- C75: FALSE of the code: `--clean --kdir KDIR` without `--arch` never cleans anything. In every environment with a
compiler the constructor raises ValueError (kernel.py:45-48), which nothing catches. -/
theorem C75_clean_fails (w : MWorld) (help : Str) (kdir : Str) (hk : kdir ≠ []) (s : MState)
    (hg : w.available s.b.hist cs!"gcc" = true) :
    main w help { kdir := some kdir, clean := true } s = (.error .value, s) := by
  have hv : ¬ Invalid { kdir := some kdir, clean := true } := by
    rintro (⟨a, h, -⟩ | h | h | h)
    · cases h
    · exact absurd ⟨_, rfl, hk⟩ h
    · exact absurd ⟨_, rfl, hk⟩ h
    · rename_i h1; simp at h1
  rw [main_valid w help _ hv, run_none _ _ _ _ _ (by rintro ⟨r, h, -⟩; cases h), tail_build _ _ _ _ (Or.inr (Or.inr rfl))]
  unfold mainBuild
  simp only [Option.map_none, Bool.or_self, Bool.false_eq_true, if_false, pathOf_some hk]
  rw [mm_bind, mm_get]
  simp only [pathOf, outState, Option.getD_none, List.nil_append, hg, Bool.not_true, Bool.false_eq_true, if_false]
  rw [mm_bind, mm_modify]
  simp only []
  rw [mm_bind, mm_pure]
  simp only []
  rw [mm_bind]
  unfold catchInit newBuilder
  simp only [mm_raise, Option.toList_none, List.append_nil]
  rw [init_messages_none _ _ _ (by unfold InitError; decide)]

theorem C75_clean_refuted : ¬ ∀ (w : MWorld) (help : Str) (args : Args) (s : MState), args.clean = true → args.config = false →
    args.build = false → Given args.kdir → ¬ Invalid args → ∃ k, ExitStatus (main w help args s).1 k := by
  intro h
  obtain ⟨k, hk⟩ := h (mainWorld cs!"5.10.0\n" none) [] { kdir := some cs!"linux", clean := true } {} rfl rfl rfl ⟨_, rfl, by simp⟩ (by
    rintro (⟨a, h, -⟩ | h | h | h)
    · cases h
    · exact absurd ⟨_, rfl, by simp⟩ h
    · exact absurd ⟨_, rfl, by simp⟩ h
    · rename_i h1; simp at h1)
  rw [C75_clean_fails _ _ cs!"linux" (by simp) _ rfl] at hk
  rcases hk with hk | hk <;> cases hk

/-- C75, what holds: with `--arch` as well, the process ends with status 0, 1 or 127, or with an AssertionError if
`make kernelversion` reports a version that the architecture does not support. Status 0 means that `make distclean` was the
last command and succeeded. Missing: `--clean` without `--arch` (`C75_clean_fails`), and the AssertionError. -/
theorem C75_clean_partial (w : MWorld) (help : Str) (args : Args) (s : MState) (k a : Str) (row : HelpRow)
    (hclean : args.clean = true) (hc : args.config = false) (hb : args.build = false)
    (hk : args.kdir = some k) (hne : k ≠ []) (ha : args.arch = some a)
    (hrow : row ∈ helpTable) (hn : a.map Char.toLower ∈ row.value :: row.aliases) (hco : ¬ Given args.checkout) :
    ((∃ c, ExitStatus (main w help args s).1 c ∧ (c = 0 ∨ c = 1 ∨ c = 127)) ∨
      ((main w help args s).1 = .error .assertion ∧ TooOld w s.b.hist (parsePath k) row)) ∧
    (ExitStatus (main w help args s).1 0 → ∃ h0 r, (main w help args s).2.b.hist = h0 ++ [r] ∧
      MakeCall (parsePath k) row.kind.name cs!"distclean" r ∧ w.status h0 r = some 0) := by
  have hv : ¬ Invalid args := by
    rintro (⟨x, h, h'⟩ | h | h | h)
    · rw [ha] at h
      injection h with h
      subst h
      exact h' ⟨row, hrow, hn⟩
    · exact absurd ⟨_, hk, hne⟩ h
    · exact absurd ⟨_, hk, hne⟩ h
    · rename_i h1; rw [hc, hb] at h1; simp at h1
  rw [main_valid w help _ hv, run_none _ _ _ _ _ (by rintro ⟨r, h, h', -⟩; exact hco ⟨r, h, h'⟩),
    tail_build _ _ _ _ (Or.inr (Or.inr hclean)), ha, Option.map_some]
  obtain ⟨h1, h2⟩ := clean_spec w (setupLogging args.quiet args.verbose) args row hrow (lower a) hn (parsePath k)
    (by rw [hk]; exact pathOf_some hne) hc hb s
  exact ⟨h1, h2⟩

example : (main (mainWorld cs!"5.10.0\n" none) [] { kdir := some cs!"linux", arch := some cs!"X86-64", clean := true } {}).1 = .ok 0 ∧
    (main (mainWorld cs!"2.4.0\n" none) [] { kdir := some cs!"linux", arch := some cs!"riscv64", clean := true } {}).1 =
      .error .assertion := by decide +kernel

/-! ## C76 -/

/-- C76: which log records are shown (levels: DEBUG 10, INFO 20, WARNING 30, ERROR 40, CRITICAL 50), for every number of
`-q` and `-v`; any `-v` makes `-q` irrelevant. -/
theorem C76_levels (q v level : Nat) :
    (v = 0 → q ≤ 1 → ((setupLogging q v).shows level = true ↔ 30 ≤ level)) ∧
    (v = 0 → q = 2 → ((setupLogging q v).shows level = true ↔ 40 ≤ level)) ∧
    (v = 0 → q = 3 → ((setupLogging q v).shows level = true ↔ 50 ≤ level)) ∧
    (v = 0 → 4 ≤ q → level ≤ 50 → (setupLogging q v).shows level = false) ∧
    (v = 1 → ((setupLogging q v).shows level = true ↔ 20 ≤ level)) ∧
    (v = 2 → ((setupLogging q v).shows level = true ↔ 10 ≤ level)) ∧
    (3 ≤ v → (setupLogging q v).shows level = true) ∧
    (0 < v → setupLogging q v = setupLogging 0 v) ∧
    ((setupLogging q v).high = true ↔ 3 ≤ v) := by
  unfold setupLogging Verbosity.shows
  refine ⟨?_, ?_, ?_, ?_, ?_, ?_, ?_, ?_, ?_⟩
  · intro h1 h2; subst h1; simp only [decide_eq_true_eq]; split <;> split <;> omega
  · intro h1 h2; subst h1; subst h2; simp; omega
  · intro h1 h2; subst h1; subst h2; simp; omega
  · intro h1 h2 h3; subst h1; simp only [decide_eq_false_iff_not]; split <;> split <;> omega
  · intro h; subst h; simp; omega
  · intro h; subst h; simp; omega
  · intro h; simp only [decide_eq_true_eq]; split <;> split <;> omega
  · intro h; simp [h]
  · simp only [Bool.and_eq_true, decide_eq_true_eq]; omega

/-- C76: messages appear on standard error iff no `-q` was given, or some `-v`. -/
theorem C76_messages (args : Args) (msg : Str) (s : MState) :
    (Talkative args → eprint (setupLogging args.quiet args.verbose) msg s = (.ok (), { s with err := s.err ++ [msg] })) ∧
    (¬ Talkative args → eprint (setupLogging args.quiet args.verbose) msg s = (.ok (), s)) := by
  rw [talkative, eprint_eq]
  unfold MState.say
  constructor
  · intro h; rw [h]; rfl
  · intro h; rw [Bool.not_eq_false] at h; rw [h]; rfl

example : Talkative { quiet := 3, verbose := 1 } ∧ ¬ Talkative { quiet := 1 } := by
  refine ⟨Or.inr (by decide), ?_⟩
  rintro (h | h)
  · exact absurd h (by decide)
  · exact absurd h (by decide)

/-! ## C77 -/

/-- C77: the errors of the instantiation of a kernel image end the process with status 1, after a message unless
messages are suppressed; the commands run and the output are unaffected. -/
theorem C77_exit (w : MWorld) (v : Verbosity) (n : Option Str) (p : Path) (kdir : Option Path) (s s1 : MState) (e : Exc)
    (h : newAnalysis w n p kdir s = (.error e, s1)) (he : InitError e) :
    ∃ s2, catchInit w v n (detectedArch w p s) (newAnalysis w n p kdir) s = (.error (.exit 1), s2) ∧ Untouched s1 s2 ∧
      (v.silent = false → ∃ l ls, s2.err = s1.err ++ l :: ls ∧ l ≠ []) := by
  obtain ⟨l, ls, h1, h2⟩ := init_messages w.prog n (detectedArch w p s) he
    (fun hm => multi_detectedArch w n p kdir s s1 (by rw [h, hm]))
  refine ⟨s1.sayAll v (l :: ls), ?_, ?_, fun hs => ⟨l, ls, ?_, h2⟩⟩
  · unfold catchInit
    rw [h]
    simp only [h1]
    rw [mm_bind, eprints_eq]
    rfl
  · unfold MState.sayAll
    split <;> exact ⟨rfl, rfl, rfl, rfl⟩
  · unfold MState.sayAll
    rw [hs]
    rfl

/-- C77: seen from the command line: whenever the image is there, `readelf` is available and the instantiation fails with
one of those errors, the status is 1 and nothing is written to standard output. -/
theorem C77_status (w : MWorld) (help : Str) (args : Args) (s s1 : MState) (p : Path) (e : Exc) (hv : ¬ Invalid args)
    (hb : ¬ BuildMode args) (hco : ¬ Given args.checkout) (hp : pathOf args.vmlinux = some p) (hf : w.isFile s.b.hist p = true)
    (hr : w.available s.b.hist cs!"readelf" = true)
    (h : newAnalysis w (args.arch.map lower) p (pathOf args.kdir) s = (.error e, s1)) (he : InitError e) :
    (main w help args s).1 = .error (.exit 1) ∧ (main w help args s).2.out = s.out ∧
    (Talkative args → ∃ l ls, (main w help args s).2.err = s.err ++ l :: ls ∧ l ≠ []) := by
  have hna : args.checkout ≠ some cs!"auto" := fun hx => hco ⟨_, hx, by simp⟩
  have hpath : vmlinuxPath args = some p := by unfold vmlinuxPath; rw [hp]
  obtain ⟨s2, h1, h2, h3⟩ := C77_exit w (setupLogging args.quiet args.verbose) _ p _ s s1 e h he
  have hout : s1.out = s.out ∧ s1.err = s.err := by
    have g1 := goes_newAnalysis w (args.arch.map lower) p (pathOf args.kdir) s
    have g2 := wordless_newAnalysis w (args.arch.map lower) p (pathOf args.kdir) s
    rw [h] at g1 g2
    exact ⟨g1.2.2.1, g2⟩
  have key : main w help args s = (.error (.exit 1), s2) := by
    rw [main_valid w help _ hv, run_none _ _ _ _ _ (by rintro ⟨r, h, h', -⟩; exact hco ⟨r, h, h'⟩), tail_analyze _ _ _ _ hb]
    unfold mainAnalyze
    simp only [hna, false_and, if_false, hpath]
    rw [mm_bind, mm_get]
    simp only [hf, hr, Bool.not_true, Bool.false_eq_true, if_false]
    rw [mm_bind, h1]
  rw [key]
  refine ⟨rfl, by rw [h2.2.2.1, hout.1], fun ht => ?_⟩
  obtain ⟨l, ls, h4, h5⟩ := h3 ((talkative args).1 ht)
  exact ⟨l, ls, by rw [h4, hout.2], h5⟩

/-- C77: other exceptions are not disguised, and those four never get past the instantiation. -/
theorem C77_others (w : MWorld) (v : Verbosity) (n : Option Str) (p : Path) (kdir : Option Path) (s s1 : MState) (e : Exc) :
    (newAnalysis w n p kdir s = (.error e, s1) → ¬ InitError e →
      catchInit w v n (detectedArch w p s) (newAnalysis w n p kdir) s = (.error e, s1)) ∧
    (catchInit w v n (detectedArch w p s) (newAnalysis w n p kdir) s = (.error e, s1) → ¬ InitError e) := by
  constructor
  · intro h he
    unfold catchInit
    rw [h]
    simp only [init_messages_none _ _ _ he]
  · intro h he
    cases ha : newAnalysis w n p kdir s with
    | mk res s' =>
      cases res with
      | ok x => unfold catchInit at h; rw [ha] at h; injection h with h; cases h
      | error e' =>
        by_cases he' : InitError e'
        · obtain ⟨s2, h1, -⟩ := C77_exit w v n p kdir s s' e' ha he'
          rw [h1] at h
          injection h with h
          injection h with h
          subst h
          revert he
          unfold InitError
          decide
        · unfold catchInit at h
          rw [ha] at h
          simp only [init_messages_none _ _ _ he'] at h
          injection h with h
          injection h with h
          exact he' (h ▸ he)

/-- C77: an object is only made for an image with symbols, a version, and an architecture accepting it: the named one, or
the only one detected. -/
theorem C77_checked (w : MWorld) (v : Verbosity) (n : Option Str) (p : Path) (kdir : Option Path) (d : Option (Kind × Bool × List Str))
    (s s1 : MState) (k : Analysis) (h : catchInit w v n d (newAnalysis w n p kdir) s = (.ok k, s1)) :
    LoadedFrom w s.b.hist p k.elf ∧ GoodKernel n k.elf k.arch k.version :=
  newAnalysis_ok w n p kdir s s1 k (catch_ok w v n d h)

/-- C77: not among the errors handled: a kernel older than the architecture supports. The constructor of the architecture
fails with AssertionError, which reaches the user as a traceback. -/
theorem C77_old_version (w : MWorld) (v : Verbosity) (row : HelpRow) (hrow : row ∈ helpTable) (n : Str)
    (hn : n ∈ row.value :: row.aliases) (p : Path) (kdir : Option Path) (s s1 : MState) (e : Elf) (ver : Ver)
    (hl : loadElf w p s = (.ok e, s1)) (hs : e.symbols ≠ []) (hv : versionFromVmlinux e = .ok (some ver))
    (hold : ¬ minVersion row.kind row.abi row.kernel32 ≤ ver) :
    catchInit w v (some n) (detectedArch w p s) (newAnalysis w (some n) p kdir) s = (.error .assertion, s1) := by
  refine (C77_others w v (some n) p kdir s s1 .assertion).1 ?_ (by unfold InitError; decide)
  have hk : kernelVersion (some e) kdir.isSome (.error .hang) = .ok ver := kernelVersion_ok.2 hv
  unfold newAnalysis
  rw [mm_bind, hl]
  simp only []
  rw [mm_bind, mm_lift]
  have : kernelInit (some n) (some e) kdir.isSome (.error .hang) = .error .assertion := by
    unfold kernelInit
    have hne : e.symbols.isEmpty = false := by cases he : e.symbols with | nil => exact absurd he hs | cons _ _ => rfl
    simp only [Option.isNone_some, Bool.and_false, Bool.false_eq_true, if_false, Option.any_some, hne, hk, bind, Except.bind,
      (C27_aliases row hrow n hn ver).2.2 hold]
  rw [this]

/-! ## C83, C84, C85 -/

theorem result_summary (kdir : Option Path) (scs : List Syscall) : resultMessages kdir scs = Summary kdir.isSome scs := by
  have line : ∀ (n : Nat) (a b c : Str), (if n ≠ 0 then [a ++ natRepr n ++ b ++ plural n ++ c] else []) = CountLine a n b c := by
    intro n a b c
    unfold CountLine plural
    by_cases h : n = 0
    · simp [h]
    · by_cases h1 : n = 1
      · simp [h1]
      · have : n > 1 := by omega
        simp [h, h1, this]
  have line0 : ∀ (n : Nat) (a b : Str), (if n ≠ 0 then [a ++ natRepr n ++ b ++ plural n] else []) = CountLine a n b [] := by
    intro n a b
    rw [← line]
    simp
  unfold resultMessages Summary
  simp only [line, line0, ← List.countP_eq_length_filter]
  cases kdir with
  | none => simp [CountLine]
  | some k => simp

/-- C84: standard output is written iff an analysis ends with status 0, and then what is written are the syscalls found in
the image (at least one), in the chosen format. -/
theorem C84_output (w : MWorld) (help : Str) (args : Args) (s : MState) :
    ((main w help args s).2.out ≠ s.out → (main w help args s).1 = .ok 0 ∧ ¬ BuildMode args ∧ ¬ Invalid args) ∧
    ((main w help args s).1 = .ok 0 → ¬ BuildMode args → ¬ AsksForHelp args →
      ∃ p e a ver hist scs text, vmlinuxPath args = some p ∧ (∃ h, LoadedFrom w h p e) ∧ GoodKernel (args.arch.map lower) e a ver ∧
        Printed w args p hist e a ver scs text ∧ scs ≠ [] ∧ (main w help args s).2.out = some text) ∧
    (∀ k, (main w help args s).1 = .ok k → ¬ BuildMode args → k = 0 ∨ k = 1 ∨ k = 127) := by
  by_cases hinv : Invalid args
  · by_cases hh : AsksForHelp args
    · obtain ⟨h1, h2, -⟩ := C73_help w help args s hh
      refine ⟨fun h => absurd h2.2.2.1 h, fun _ _ h => absurd hh h, ?_⟩
      rw [h1]; intro k hk _; injection hk with hk; exact Or.inl hk.symm
    · obtain ⟨h1, h2, -⟩ := C73_invalid w help args s hinv hh
      refine ⟨fun h => absurd h2.2.2.1 h, ?_, ?_⟩
      · rw [h1]; intro h; injection h with h; cases h
      · rw [h1]; intro k hk _; injection hk with hk; exact Or.inr (Or.inl hk.symm)
  rw [main_valid w help args hinv]
  generalize setupLogging args.quiet args.verbose = v
  generalize args.arch.map lower = n
  -- the part after the explicit checkout
  have tail : ∀ s1 : MState, s1.out = s.out →
      ((mainTail w v args n s1).2.out ≠ s.out → (mainTail w v args n s1).1 = .ok 0 ∧ ¬ BuildMode args ∧ ¬ Invalid args) ∧
      ((mainTail w v args n s1).1 = .ok 0 → ¬ BuildMode args → ¬ AsksForHelp args →
        ∃ p e a ver hist scs text, vmlinuxPath args = some p ∧ (∃ h, LoadedFrom w h p e) ∧ GoodKernel n e a ver ∧
          Printed w args p hist e a ver scs text ∧ scs ≠ [] ∧ (mainTail w v args n s1).2.out = some text) ∧
      (∀ k, (mainTail w v args n s1).1 = .ok k → ¬ BuildMode args → k = 0 ∨ k = 1 ∨ k = 127) := by
    intro s1 hs1
    by_cases hb : BuildMode args
    · rw [tail_build w v args n hb]
      exact ⟨fun h => absurd ((mute_build w v args n s1).trans hs1) h, fun _ h => absurd hb h, fun _ _ h => absurd hb h⟩
    · rw [tail_analyze w v args n hb]
      obtain ⟨-, -, h3, h4, h5⟩ := analyze_spec w v args n s1
      refine ⟨fun h => ⟨?_, hb, hinv⟩, ?_, fun k hk _ => h3 k hk⟩
      · by_cases h0 : (mainAnalyze w v args n s1).1 = .ok 0
        · exact h0
        · exact absurd ((h4 h0).trans hs1) h
      · intro h0 _ _
        obtain ⟨p, e, a, ver, hist, scs, text, g1, g2, g3, g4, -, -, g5, -⟩ := h5 h0
        refine ⟨p, e, a, ver, hist, scs, text, g1, ⟨_, g2⟩, g3, g4, ?_, g5⟩
        obtain ⟨found, -, f2, f3, -⟩ := g4
        intro hn
        rw [hn] at f3
        exact f2 (List.length_eq_zero_iff.1 f3.symm)
  by_cases hex : ∃ ref, ExplicitRef args ref
  · obtain ⟨ref, href⟩ := hex
    obtain ⟨r, s1, -, -, -, -, a5, a6⟩ := run_explicit w v args n s ref href
    rcases a6 with h | ⟨e, h⟩
    · rw [h]; exact tail s1 a5
    · rw [h]
      exact ⟨fun h => absurd a5 h, fun h => (by cases h), fun _ h => (by cases h)⟩
  · rw [run_none w v args n s hex]
    exact tail s rfl

/-- C83: in what is printed, without `--absolute-paths` and with a source directory every path inside the source directory
is relative to it and every other path is as found; otherwise all paths are as found. Nothing else about the syscalls
changes, nor does their order. -/
theorem C83_paths (w : MWorld) (args : Args) (p : Path) (hist : List Run) (e : Elf) (a : Arch) (ver : Ver) (scs : List Syscall)
    (text : Str) (h : Printed w args p hist e a ver scs text) :
    ∃ found, extractSyscalls a e ver (kenvOf w hist a e p (pathOf args.kdir) (pathOf args.remap)) = .ok found ∧
      scs.length = found.length ∧
      (∀ (i : Nat) (x y : Syscall), found[i]? = some x → scs[i]? = some y →
        (∀ kdir, pathOf args.kdir = some kdir → args.absolutePaths = false → PathChanged (Shown kdir) x y) ∧
        (¬ Given args.kdir ∨ args.absolutePaths = true → y = x)) := by
  obtain ⟨found, h1, -, h2, h3, -⟩ := h
  refine ⟨found, h1, h2, ?_⟩
  intro i x y hx hy
  obtain ⟨q, hq, hr⟩ := h3 i x hx
  rw [hy] at hq
  injection hq with hq
  subst hq
  constructor
  · intro kdir hk ha
    rw [hk, ha] at hr
    exact hr
  · rintro (hk | ha)
    · rw [pathOf_none.2 hk] at hr
      exact hr
    · rw [ha] at hr
      revert hr
      cases pathOf args.kdir <;> exact id

/-- the paths: one inside of the source directory, one outside -/
example (sc : Syscall) : relativize (some ⟨true, [cs!"src"]⟩) false { sc with file := some ⟨true, [cs!"src", cs!"fs", cs!"open.c"]⟩ } =
    .ok { sc with file := some ⟨false, [cs!"fs", cs!"open.c"]⟩ } ∧
    relativize (some ⟨true, [cs!"src"]⟩) false { sc with file := some ⟨true, [cs!"src2", cs!"open.c"]⟩ } =
    .ok { sc with file := some ⟨true, [cs!"src2", cs!"open.c"]⟩ } := ⟨rfl, rfl⟩

/-- C85: when messages are not suppressed, the last messages before the output count what is printed: the syscalls, those
found by grepping, those without a location, those without a signature. -/
theorem C85_summary (w : MWorld) (help : Str) (args : Args) (s : MState) (ht : Talkative args)
    (h0 : (main w help args s).1 = .ok 0) (hb : ¬ BuildMode args) (hh : ¬ AsksForHelp args) :
    ∃ p e a ver hist scs text more, Printed w args p hist e a ver scs text ∧ (main w help args s).2.out = some text ∧
      (main w help args s).2.err = more ++ Summary (given args.kdir) scs := by
  have hinv : ¬ Invalid args := by
    intro hi
    rw [(C73_invalid w help args s hi hh).1] at h0
    injection h0 with h0
    cases h0
  have hg : (pathOf args.kdir).isSome = given args.kdir := by
    cases args.kdir with
    | none => rfl
    | some k => cases k <;> rfl
  rw [main_valid w help args hinv] at h0 ⊢
  have hsil := (talkative args).1 ht
  revert h0
  generalize setupLogging args.quiet args.verbose = v at *
  generalize args.arch.map lower = n
  intro h0
  have tail : ∀ s1 : MState, (mainTail w v args n s1).1 = .ok 0 → ∃ p e a ver hist scs text more, Printed w args p hist e a ver scs text ∧
      (mainTail w v args n s1).2.out = some text ∧ (mainTail w v args n s1).2.err = more ++ Summary (given args.kdir) scs := by
    intro s1 h0
    rw [tail_analyze w v args n hb] at h0 ⊢
    obtain ⟨-, -, -, -, h5⟩ := analyze_spec w v args n s1
    obtain ⟨p, e, a, ver, hist, scs, text, -, -, -, g4, -, -, g5, g6⟩ := h5 h0
    obtain ⟨more, g6⟩ := g6 hsil
    exact ⟨p, e, a, ver, hist, scs, text, s1.err ++ more, g4, g5, by rw [g6, result_summary, hg]⟩
  by_cases hex : ∃ ref, ExplicitRef args ref
  · obtain ⟨ref, href⟩ := hex
    obtain ⟨r, s1, -, -, -, -, -, a6⟩ := run_explicit w v args n s ref href
    rcases a6 with h | ⟨e, h⟩
    · rw [h] at h0 ⊢; exact tail s1 h0
    · rw [h] at h0; cases h0
  · rw [run_none w v args n s hex] at h0 ⊢
    exact tail s h0

/-! A small image on which the whole program can be followed: 64-bit RISC-V, the code of `smallText` (at file offset 0x40,
address 0x100), a table with two implemented entries (0x58, 0x400) and the banner (0x78, 0x500). -/

/-- the file: 64 bytes of header (class 2, little endian, machine 243), code, table, banner -/
def tinyImage (version : Str) : Bytes :=
  [0x7f, 0x45, 0x4c, 0x46, 2, 1, 1, 0, 0, 0, 0, 0, 0, 0, 0, 0, 2, 0, 243, 0] ++ List.replicate 44 0 ++ smallText ++
  encTable false 8 [0x100, 0x108, 0x110, 0] ++ (cs!"Linux version " ++ version ++ cs!" (gcc)\n").map (fun c => UInt8.ofNat c.toNat)

/-- `readelf -Ws` -/
def tinySymbols : Str :=
  cs!"     1: 0000000000000100     8 FUNC    GLOBAL DEFAULT    1 __riscv_sys_ni_syscall\n" ++
  cs!"     2: 0000000000000108     8 FUNC    GLOBAL DEFAULT    1 __riscv_sys_open\n" ++
  cs!"     3: 0000000000000110     8 FUNC    GLOBAL DEFAULT    1 __riscv_sys_read\n" ++
  cs!"     4: 0000000000000400    24 OBJECT  GLOBAL DEFAULT    2 sys_call_table\n" ++
  cs!"     5: 0000000000000418     8 OBJECT  GLOBAL DEFAULT    2 other\n" ++
  cs!"     6: 0000000000000500    26 OBJECT  GLOBAL DEFAULT    3 linux_banner\n"

/-- `readelf -WS` -/
def tinySections : Str :=
  cs!"  [ 1] .text PROGBITS 0000000000000100 000040 000018 00 AX 0 0 4\n" ++
  cs!"  [ 2] .rodata PROGBITS 0000000000000400 000058 000020 00 A 0 0 4\n" ++
  cs!"  [ 3] .banner PROGBITS 0000000000000500 000078 00001a 00 A 0 0 4\n"

/-- the world with that image, `addr2line` knowing nothing -/
def tinyWorld (version symbols : Str) : MWorld :=
  let w := mainWorld version (some (tinyImage version))
  { w with
    output := fun _ r => if r.argv.take 2 = [cs!"readelf", cs!"-Ws"] then symbols else tinySections
    locEnv := fun _ => { smallWorld with addr2line := fun l => .ok (l.map fun _ => cs!"??:0"), files := fun _ => none } }

/-- the analysis of that image: status, output, messages, commands -/
theorem tiny_run :
    let r := main (tinyWorld cs!"6.0.3" tinySymbols) [] { vmlinux := some cs!"vmlinux" } {}
    r.1 = .ok 0 ∧ r.2.out.isSome = true ∧
    r.2.err = [cs!"Detected kernel version: 6.0.3 (from vmlinux)", cs!"Found 2 implemented syscalls",
      cs!"Could not find definition location for 2 syscalls", []] ∧
    r.2.b.hist.map Run.argv = [[cs!"readelf", cs!"-Ws", cs!"vmlinux"], [cs!"readelf", cs!"-WS", cs!"vmlinux"]] := by
  decide +kernel

/-- and with an automatic checkout -/
theorem tiny_checkout :
    let r := main (tinyWorld cs!"6.0.3" tinySymbols) [] { vmlinux := some cs!"vmlinux", kdir := some cs!"linux", checkout := some cs!"auto" } {}
    r.2.b.hist.map Run.argv = [[cs!"readelf", cs!"-Ws", cs!"vmlinux"], [cs!"readelf", cs!"-WS", cs!"vmlinux"],
      [cs!"git", cs!"checkout", cs!"v6.0.3"]] := by
  decide +kernel

/-- the image stripped -/
theorem tiny_stripped : InitError (.named "KernelWithoutSymbolsError") ∧
    (newAnalysis (tinyWorld cs!"6.0.3" []) none ⟨false, [cs!"vmlinux"]⟩ none {}).1.map (fun _ => ()) = .error (.named "KernelWithoutSymbolsError") ∧
    (main (tinyWorld cs!"6.0.3" []) [] { vmlinux := some cs!"vmlinux" } {}).1 = .error (.exit 1) ∧
    (main (tinyWorld cs!"6.0.3" []) [] { vmlinux := some cs!"vmlinux" } {}).2.err.length = 2 := by
  refine ⟨Or.inr (Or.inr (Or.inl rfl)), ?_⟩
  decide +kernel

/-- the image of a kernel too old for the architecture -/
theorem tiny_old :
    (main (tinyWorld cs!"2.6.1" tinySymbols) [] { vmlinux := some cs!"vmlinux", arch := some cs!"riscv64" } {}).1 = .error .assertion ∧
    (main (tinyWorld cs!"2.6.1" tinySymbols) [] { vmlinux := some cs!"vmlinux", arch := some cs!"riscv64" } {}).2.err = [] := by
  decide +kernel

end Verif
