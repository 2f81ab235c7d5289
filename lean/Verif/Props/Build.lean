import Verif.Lemmas.Careful
import Verif.Props.Kconfig
/-! # Properties of configuring and building: C66-C69, C78, C80, C81 -/
set_option autoImplicit false

namespace Verif
open Spec

/-! ## Examples used below -/

/-- an x86-64 kernel tree -/
def exBuilder : Builder where
  kdir := ⟨true, [cs!"src", cs!"linux"]⟩
  outdir := none
  toolchainPrefix := none
  arch := { kind := .x86, version := [5, 10], abi := cs!"x64", bits32 := false, abiBits32 := false,
            compat := false, configTargets := [cs!"x86_64_defconfig"], numBase := 0 }
  store := initialStore

def exMakefile : Str := cs!"ifdef X\nelse\nKBUILD_CFLAGS\t+= -O2\nendif\n"

/-- where the first `k` commands fail, and the process is interrupted at a point -/
def exWorld (k : Nat) (i : Option Point) : World where
  status h _ := if h.length < k then some 2 else some 0
  output _ _ := []
  readLines _ _ := none
  cwd := ⟨true, []⟩
  ncpu := 8
  interrupt := i

theorem exFlag : findFlags true exMakefile = some (cs!"ifdef X\nelse\nKBUILD_CFLAGS\t+= -O", cs!"\nendif\n") := by decide

/-! ## C66 -/

theorem build_cases (s : BState) (opt : Bool) :
    ((opt = true → NoFlag s.makefile) ∧ (opt = true → findFlags true s.makefile = none)) ∨
    (opt = true ∧ ∃ a mid post, FirstFlag s.makefile a mid post ∧ findFlags true s.makefile = some (a ++ mid, post) ∧
      s.makefile = a ++ mid ++ '2' :: post) := by
  cases opt with
  | false => left; simp
  | true =>
    cases h : findFlags true s.makefile with
    | none => left; exact ⟨fun _ => findFlags_none h, fun _ => rfl⟩
    | some p =>
      right
      obtain ⟨pre, post⟩ := p
      obtain ⟨a, mid, rfl, hf⟩ := findFlags_some h
      exact ⟨rfl, a, mid, post, hf, rfl, hf.1.1⟩

/-- C66: when the build was not interrupted, the Makefile has its original content afterwards, whether the build
succeeded or not, also once exit handlers ran. -/
theorem C66_restored_partial (w : World) (b : Builder) (s : BState) (opt : Bool) (hi : w.interrupt = none)
    (hr : '\r' ∉ s.makefile) (hh : s.handler = false) :
    (build w b opt s).2.makefile = s.makefile ∧ (atExit (build w b opt s).2).makefile = s.makefile := by
  rcases build_cases s opt with ⟨-, h⟩ | ⟨rfl, a, mid, post, -, h, -⟩
  · obtain ⟨-, -, h3, h4⟩ := build_stock w b s opt hr h
    refine ⟨h3, ?_⟩
    unfold atExit
    rw [h4, hh]
    simpa using h3
  · obtain ⟨-, -, h3, h4, -⟩ := build_patched w b s hr _ post h
    have e : (patchedBuild w b s (a ++ mid) post).2.2.1 = s.makefile ∧ (patchedBuild w b s (a ++ mid) post).2.2.2 = false := by
      unfold patchedBuild
      simp only [hi, reduceCtorEq, if_false]
      split
      · exact ⟨rfl, rfl⟩
      · split <;> exact ⟨rfl, rfl⟩
    refine ⟨h3.trans e.1, ?_⟩
    unfold atExit
    rw [h4, e.2]
    simpa using h3.trans e.1

example : (exWorld 3 none).interrupt = none ∧ '\r' ∉ exMakefile ∧
    (build (exWorld 3 none) exBuilder true { makefile := exMakefile }).1 = .error (.exit 1) ∧
    (build (exWorld 3 none) exBuilder true { makefile := exMakefile }).2.hist.length = 3 := by decide +kernel

/-- C66: every command of a build sees the original Makefile, or one that differs in exactly one character: the
digit of the first `KBUILD_CFLAGS += -O2`. -/
theorem C66_one_character (w : World) (b : Builder) (s : BState) (opt : Bool) (hr : '\r' ∉ s.makefile) :
    ∃ R, (build w b opt s).2.hist = s.hist ++ R ∧ ∀ r ∈ R, r.makefile = s.makefile ∨
      ∃ a mid post d, FirstFlag s.makefile a mid post ∧ s.makefile = a ++ mid ++ '2' :: post ∧ (d = '0' ∨ d = '1') ∧
        r.makefile = a ++ mid ++ d :: post := by
  rcases build_cases s opt with ⟨-, h⟩ | ⟨rfl, a, mid, post, hf, h, hs⟩
  · obtain ⟨-, h2, -, -⟩ := build_stock w b s opt hr h
    refine ⟨_, h2, ?_⟩
    intro r hr
    simp only [List.mem_singleton] at hr
    subst hr
    exact Or.inl rfl
  · obtain ⟨-, h2, -, -, -⟩ := build_patched w b s hr _ post h
    refine ⟨_, h2, ?_⟩
    have key : ∀ r ∈ (patchedBuild w b s (a ++ mid) post).2.1,
        r ∈ [vmRun w b (a ++ mid ++ '0' :: post), vmRun w b (a ++ mid ++ '1' :: post), vmRun w b s.makefile] := by
      generalize a ++ mid = pre
      unfold patchedBuild
      intro r
      simp only
      by_cases i1 : w.interrupt = some (.patched 0)
      · simp [i1]
      by_cases i2 : w.interrupt = some (.run s.hist.length)
      · simp [i2]; exact Or.inl
      by_cases i3 : w.interrupt = some (.restoring 0)
      · simp [i3]; exact Or.inl
      simp only [if_neg i1, if_neg i2, if_neg i3]
      split
      · simp; exact Or.inl
      split
      · simp; exact Or.inl
      split
      · simp; rintro (h | h) <;> simp [h]
      split
      · simp; rintro (h | h) <;> simp [h]
      split
      · simp; rintro (h | h) <;> simp [h]
      · simp
    intro r hr
    have := key r hr
    simp only [List.mem_cons, List.not_mem_nil, or_false] at this
    rcases this with rfl | rfl | rfl
    · exact Or.inr ⟨a, mid, post, '0', hf, hs, Or.inl rfl, rfl⟩
    · exact Or.inr ⟨a, mid, post, '1', hf, hs, Or.inr rfl, rfl⟩
    · exact Or.inl rfl

example : ((build (exWorld 3 none) exBuilder true { makefile := exMakefile }).2.hist.map Run.makefile) =
    [cs!"ifdef X\nelse\nKBUILD_CFLAGS\t+= -O0\nendif\n", cs!"ifdef X\nelse\nKBUILD_CFLAGS\t+= -O1\nendif\n", exMakefile] := by
  decide +kernel

/-- C66 does not hold for a Makefile with carriage returns: it is read in text mode, so `\r\n` comes back as `\n`. -/
theorem C66_restored_refuted : ¬ ∀ (w : World) (b : Builder) (s : BState) (opt : Bool), w.interrupt = none →
    s.handler = false → (build w b opt s).2.makefile = s.makefile := by
  intro h
  have := h (exWorld 0 none) exBuilder { makefile := cs!"A = 1\r\nKBUILD_CFLAGS += -O2\r\n" } true rfl rfl
  revert this
  decide +kernel

/-! ## C67 -/

/-- The Makefile cannot be restored: the process ends between the rewriting and the registration of the exit
handler, or in the second attempt, for which no handler is registered. -/
def Exposed (w : World) (b : Builder) (h : List Run) (a mid post : Str) : Prop :=
  w.interrupt = some (.patched 0) ∨
  (w.status h ⟨makeArgv w b cs!"vmlinux", some b.kdir, none, false, a ++ mid ++ '0' :: post⟩ ≠ some 0 ∧
    (w.interrupt = some (.patched 1) ∨ w.interrupt = some (.run (h.length + 1)) ∨ w.interrupt = some (.restoring 1)))

/-- C67, exactly: when the process ends, whatever happened, the Makefile has its original content iff the interruption, if
any, was not at one of the exposed points. -/
theorem C67_exact_partial (w : World) (b : Builder) (s : BState) (hr : '\r' ∉ s.makefile) (hh : s.handler = false)
    (a mid post : Str) (hf : FirstFlag s.makefile a mid post) :
    (atExit (build w b true s).2).makefile = s.makefile ↔ ¬ Exposed w b s.hist a mid post := by
  rcases build_cases s true with ⟨h, -⟩ | ⟨-, a', mid', post', hf', h, hs⟩
  · exact absurd hf.1 (h rfl a mid post)
  · obtain ⟨rfl, rfl, rfl⟩ := FirstFlag_unique hf hf'
    obtain ⟨-, -, h3, h4, h5⟩ := build_patched w b s hr _ post h
    have hne : s.makefile ≠ [] := by rw [hs]; simp
    obtain ⟨c, cs, hm⟩ := List.exists_cons_of_ne_nil hne
    have hd : ∀ d : Char, d ≠ '2' → a ++ mid ++ d :: post ≠ s.makefile := by
      intro d hd e
      rw [hs] at e
      have := List.append_cancel_left e
      simp only [List.cons.injEq, and_true] at this
      exact hd this
    have hx : (atExit (build w b true s).2).makefile =
        if (patchedBuild w b s (a ++ mid) post).2.2.2 then s.makefile else (patchedBuild w b s (a ++ mid) post).2.2.1 := by
      unfold atExit
      rw [h4, h5, hm]
      by_cases hq : (patchedBuild w b s (a ++ mid) post).2.2.2 = true
      · simp [hq]
      · simp [hq, h3]
    rw [hx]
    have hv : (⟨makeArgv w b cs!"vmlinux", some b.kdir, none, false, a ++ mid ++ '0' :: post⟩ : Run) = vmRun w b (a ++ mid ++ '0' :: post) := rfl
    unfold Exposed patchedBuild
    rw [hv]
    clear h3 h4 h5 hx hv h hs
    generalize a ++ mid = pre at *
    by_cases i1 : w.interrupt = some (.patched 0)
    · simp [i1, hh]
      simpa using hd '0' (by decide)
    by_cases i2 : w.interrupt = some (.run s.hist.length)
    · simp [i2]
    by_cases i3 : w.interrupt = some (.restoring 0)
    · simp [i3]
    by_cases s1 : w.status s.hist (vmRun w b (pre ++ '0' :: post)) = some 0
    · simp only [if_neg i1, if_neg i2, if_neg i3, if_pos s1]
      simp [i1, s1]
    by_cases i4 : w.interrupt = some (.patched 1)
    · simp only [if_neg i1, if_neg i2, if_neg i3, if_neg s1, if_pos i4]
      simp only [i4, s1]
      have hd1 := hd '1' (by decide)
      simp [s1, hd1]
    by_cases i5 : w.interrupt = some (.run (s.hist.length + 1))
    · simp only [if_neg i1, if_neg i2, if_neg i3, if_neg s1, if_neg i4, if_pos i5]
      simp only [i5, s1]
      have hd1 := hd '1' (by decide)
      simp [s1, hd1]
    by_cases i6 : w.interrupt = some (.restoring 1)
    · simp only [if_neg i1, if_neg i2, if_neg i3, if_neg s1, if_neg i4, if_neg i5, if_pos i6]
      simp only [i6, s1]
      simp [s1, hne]
    simp only [if_neg i1, if_neg i2, if_neg i3, if_neg s1, if_neg i4, if_neg i5, if_neg i6]
    simp only [i1, i4, i5, i6]
    simp
    split <;> simp

theorem exFirstFlag : '\r' ∉ exMakefile ∧ FirstFlag exMakefile cs!"ifdef X\nelse\n" cs!"KBUILD_CFLAGS\t+= -O" cs!"\nendif\n" := by
  refine ⟨by decide, ?_⟩
  obtain ⟨a, mid, h1, h2⟩ := findFlags_some exFlag
  have hl : mid = cs!"KBUILD_CFLAGS\t+= -O" ∧ a = cs!"ifdef X\nelse\n" := by
    obtain ⟨-, -, ⟨ws, ws', rfl, -, -⟩, -⟩ := h2.1
    have hl : a.length ≤ 13 := by
      refine h2.2 cs!"ifdef X\nelse\n" cs!"KBUILD_CFLAGS\t+= -O" cs!"\nendif\n" ⟨by decide, Or.inr (by decide), ⟨cs!"\t", cs!" ", by decide, ?_, ?_⟩, cs!"endif\n", by decide⟩ <;> simp <;> decide
    have hk : ∀ n, n ≤ 13 → startsWith (cs!"ifdef X\nelse\nKBUILD_CFLAGS\t+= -O".drop n) cs!"KBUILD_CFLAGS" = true → n = 13 := by decide
    have := hk a.length hl (by
      rw [h1, List.drop_left, startsWith_iff]; exact ⟨ws ++ cs!"+=" ++ ws' ++ cs!"-O", by simp⟩)
    have e := congrArg (List.take 13) h1
    rw [← this, List.take_left] at e
    have e' := congrArg (List.drop 13) h1
    rw [← this, List.drop_left] at e'
    rw [this] at e e'
    exact ⟨e'.symm, e.symm⟩
  rw [hl.1, hl.2] at h2
  exact h2

/-- C67: without patching nothing can go wrong. -/
theorem C67_stock (w : World) (b : Builder) (s : BState) (opt : Bool) (hr : '\r' ∉ s.makefile) (hh : s.handler = false)
    (h : opt = false ∨ NoFlag s.makefile) : (atExit (build w b opt s).2).makefile = s.makefile := by
  rcases build_cases s opt with ⟨-, h'⟩ | ⟨rfl, a, mid, post, hf, -, -⟩
  · obtain ⟨-, -, h3, h4⟩ := build_stock w b s opt hr h'
    unfold atExit
    rw [h4, hh]
    simpa using h3
  · rcases h with h | h
    · cases h
    · exact absurd hf.1 (h a mid post)

/-- C67 fails: interrupted in the second `make`, the Makefile keeps `-O1`. -/
theorem C67_restored_refuted : ¬ ∀ (w : World) (b : Builder) (s : BState), '\r' ∉ s.makefile → s.handler = false →
    (∃ k, w.interrupt = some (.run k)) → (atExit (build w b true s).2).makefile = s.makefile := by
  intro h
  have := h (exWorld 1 (some (.run 1))) exBuilder { makefile := exMakefile } (by decide) rfl ⟨1, rfl⟩
  revert this
  decide +kernel

/-- C67: interrupted while restoring after that, the Makefile is lost: it is left empty. -/
theorem C67_emptied : (atExit (build (exWorld 1 (some (.restoring 1))) exBuilder true { makefile := exMakefile }).2).makefile = [] := by
  decide +kernel

/-! ## C68 -/

theorem ensured_ok {o : Option Nat} : ensured o = .ok () ↔ o = some 0 := by
  unfold ensured
  split <;> simp_all

theorem ensured_error {o : Option Nat} (h : o ≠ some 0) : ensured o = .error (.exit 1) ∨ ensured o = .error (.exit 127) := by
  unfold ensured
  split <;> simp_all

/-- C68: with a Makefile that can be patched, the attempts are `-O0`, `-O1`, stock, up to the first success, and the build
succeeds iff one of them does; otherwise the process exits with an error. -/
theorem C68_levels (w : World) (b : Builder) (s : BState) (hi : w.interrupt = none) (hr : '\r' ∉ s.makefile)
    (a mid post : Str) (hf : FirstFlag s.makefile a mid post) :
    ∃ r0 r1 r2 R ok, (∀ r ∈ [r0, r1, r2], MakeCall b.kdir b.arch.kind.name cs!"vmlinux" r) ∧
      r0.makefile = a ++ mid ++ '0' :: post ∧ r1.makefile = a ++ mid ++ '1' :: post ∧ r2.makefile = s.makefile ∧
      (build w b true s).2.hist = s.hist ++ R ∧ Attempts w.status s.hist [r0, r1, r2] R ok ∧
      ((build w b true s).1 = .ok () ↔ ok = true) ∧
      (ok = false → (build w b true s).1 = .error (.exit 1) ∨ (build w b true s).1 = .error (.exit 127)) := by
  rcases build_cases s true with ⟨h, -⟩ | ⟨-, a', mid', post', hf', h, hs⟩
  · exact absurd hf.1 (h rfl a mid post)
  · obtain ⟨rfl, rfl, rfl⟩ := FirstFlag_unique hf hf'
    obtain ⟨h1, h2, -, -, -⟩ := build_patched w b s hr _ post h
    rw [h1, h2]
    have hc : ∀ r ∈ [vmRun w b (a ++ mid ++ '0' :: post), vmRun w b (a ++ mid ++ '1' :: post), vmRun w b s.makefile],
        MakeCall b.kdir b.arch.kind.name cs!"vmlinux" r := by
      intro r hr
      simp only [List.mem_cons, List.not_mem_nil, or_false] at hr
      rcases hr with rfl | rfl | rfl <;> exact makeCall w b _ _ _
    unfold patchedBuild
    simp only [hi, reduceCtorEq, if_false]
    by_cases s1 : w.status s.hist (vmRun w b (a ++ mid ++ '0' :: post)) = some 0
    · rw [if_pos s1]
      exact ⟨_, _, _, _, true, hc, rfl, rfl, rfl, rfl, .success _ _ _ s1, by simp, by simp⟩
    rw [if_neg s1]
    by_cases s2 : w.status (s.hist ++ [vmRun w b (a ++ mid ++ '0' :: post)]) (vmRun w b (a ++ mid ++ '1' :: post)) = some 0
    · rw [if_pos s2]
      exact ⟨_, _, _, _, true, hc, rfl, rfl, rfl, rfl, .failure _ _ _ _ _ s1 (.success _ _ _ s2), by simp, by simp⟩
    rw [if_neg s2]
    by_cases s3 : w.status (s.hist ++ [vmRun w b (a ++ mid ++ '0' :: post)] ++ [vmRun w b (a ++ mid ++ '1' :: post)]) (vmRun w b s.makefile) = some 0
    · exact ⟨_, _, _, _, true, hc, rfl, rfl, rfl, rfl, .failure _ _ _ _ _ s1 (.failure _ _ _ _ _ s2 (.success _ _ _ s3)),
        by rw [ensured_ok]; simp only [s3], by simp⟩
    · exact ⟨_, _, _, _, false, hc, rfl, rfl, rfl, rfl,
        .failure _ _ _ _ _ s1 (.failure _ _ _ _ _ s2 (.failure _ _ _ _ _ s3 (.exhausted _))),
        by simpa [ensured_ok] using s3, fun _ => ensured_error s3⟩

example : ((build (exWorld 1 none) exBuilder true { makefile := exMakefile }).1, (build (exWorld 1 none) exBuilder true { makefile := exMakefile }).2.hist.length) =
    (.ok (), 2) := by decide +kernel

/-- C68: without the option, or with a Makefile that cannot be patched, only the stock build runs. -/
theorem C68_stock (w : World) (b : Builder) (s : BState) (opt : Bool) (hi : w.interrupt = none) (hr : '\r' ∉ s.makefile)
    (h : opt = false ∨ NoFlag s.makefile) :
    ∃ r ok, MakeCall b.kdir b.arch.kind.name cs!"vmlinux" r ∧ r.makefile = s.makefile ∧
      (build w b opt s).2.hist = s.hist ++ [r] ∧ Attempts w.status s.hist [r] [r] ok ∧
      ((build w b opt s).1 = .ok () ↔ ok = true) ∧
      (ok = false → (build w b opt s).1 = .error (.exit 1) ∨ (build w b opt s).1 = .error (.exit 127)) := by
  rcases build_cases s opt with ⟨-, h'⟩ | ⟨rfl, a, mid, post, hf, -, -⟩
  · obtain ⟨h1, h2, -, -⟩ := build_stock w b s opt hr h'
    rw [h1, h2]
    simp only [hi, reduceCtorEq, if_false]
    by_cases s1 : w.status s.hist (vmRun w b s.makefile) = some 0
    · exact ⟨_, true, makeCall w b _ _ _, rfl, rfl, .success _ _ _ s1, by simp [ensured_ok, s1], by simp⟩
    · exact ⟨_, false, makeCall w b _ _ _, rfl, rfl, .failure _ _ _ _ _ s1 (.exhausted _), by simpa [ensured_ok] using s1,
        fun _ => ensured_error s1⟩
  · rcases h with h | h
    · cases h
    · exact absurd hf.1 (h a mid post)

example : NoFlag cs!"KBUILD_CFLAGS += -O3\n" := findFlags_none (by decide)

/-! ## C69 -/

/-- the options of a variant: those of the class and those its constructor adds -/
def variantTable (k : Kind) (abi : Str) (bits32 : Bool) : List (VEntry Str (List Str)) := k.kconfigTable ++ ctorAdds k abi bits32

theorem createArch_store {k : Kind} {v0 : Ver} {abi : Str} {bits32 : Bool} {a : Arch} {st : KStore}
    (h : createArch initialStore k v0 abi bits32 = .ok (a, st)) : st a.kind = VDict.init (variantTable k abi bits32) := by
  unfold createArch at h
  simp only [bind, Except.bind] at h
  split at h
  · cases h
  · rename_i a' ha
    simp only [Except.ok.injEq, Prod.mk.injEq] at h
    obtain ⟨rfl, rfl⟩ := h
    rw [newArch_kind ha]
    simp only [if_true]
    unfold initialStore variantTable
    rw [VDict.init_eq, VDict.init_eq, addLog_append]
    rfl

theorem variantTable_eq (k : Kind) (abi : Str) (bits32 : Bool) : ∀ e ∈ variantTable k abi bits32, '=' ∈ e.2.2.1 := by
  unfold variantTable
  cases k <;> unfold ctorAdds <;> simp only
  · split <;> decide +kernel
  · decide +kernel
  · split <;> decide +kernel
  · split <;> decide +kernel
  · split <;> decide +kernel
  · split <;> decide +kernel

/-- C69: whatever the commands answer and wherever the process is interrupted, what is run is the base targets, the question for the version,
then each group of options followed by its synchronisation, in the documented order; all of it if `configure` succeeds,
and otherwise a beginning of it. -/
theorem C69_order (w : World) (b : Builder) (s : BState) (k : Kind) (v0 : Ver) (abi : Str) (bits32 : Bool)
    (h : createArch initialStore k v0 abi bits32 = .ok (b.arch, b.store)) :
    ∃ R v, (configure w b s).2.hist = s.hist ++ R ∧ VersionPrinted w.output s.hist v R ∧
      ((configure w b s).1 = .ok () →
        AllPhases (configPhases b.kdir b.configFile b.arch.kind.name b.arch.configTargets (variantTable k abi bits32) v) R) ∧
      (∀ e, (configure w b s).1 = .error e →
        Phases (configPhases b.kdir b.configFile b.arch.kind.name b.arch.configTargets (variantTable k abi bits32) v) R) :=
  configure_spec w b s _ (createArch_store h) (variantTable_eq k abi bits32)

/-- C69: a command is only run when all those before it succeeded, and `configure` only succeeds when all did. -/
theorem C69_stops (w : World) (b : Builder) (s : BState) :
    ∃ R, (configure w b s).2.hist = s.hist ++ R ∧ ∀ pre r post, R = pre ++ r :: post →
      (post ≠ [] ∨ (configure w b s).1 = .ok ()) → w.status (s.hist ++ pre) r = some 0 :=
  configure_careful w b s

/-- a world where everything works, for a 5.10 kernel -/
def okWorld (version : Str) : World where
  status _ _ := some 0
  output _ r := if r.argv = [cs!"make", cs!"kernelversion"] then version else cs!"undef\n"
  readLines _ _ := some [cs!"CONFIG_SMP=y\n"]
  cwd := ⟨true, []⟩
  ncpu := 8
  interrupt := none

/-- the builder of x86-64 made by the program -/
def x64Builder : Res Builder := do
  let (a, st) ← createArch initialStore .x86 [5, 10] cs!"x64" false
  .ok { kdir := ⟨true, [cs!"src", cs!"linux"]⟩, outdir := none, toolchainPrefix := none, arch := a, store := st }

example : ∃ b, x64Builder = .ok b ∧ createArch initialStore .x86 [5, 10] cs!"x64" false = .ok (b.arch, b.store) ∧
    (configure (okWorld cs!"5.10.4\n") b {}).1 = .ok () ∧ 10 < (configure (okWorld cs!"5.10.4\n") b {}).2.hist.length :=
  ⟨_, rfl, rfl, by decide +kernel, by decide +kernel⟩

/-! ## C78 -/

/-- `o` is set somewhere while configuring a variant at version `v` -/
def SetWhileConfiguring (k : Kind) (abi : Str) (bits32 : Bool) (v : Ver) (o : Opt) : Prop :=
  InListTable kconfigDebuggingTable v o ∨ InListTable kconfigCompatibilityTable v o ∨ InDictTable kconfigMoreSyscallsTable v o ∨
    InDictTable (variantTable k abi bits32) v o

/-- all entries: range and option -/
def allEntries (k : Kind) (abi : Str) (bits32 : Bool) : List (Ver × Ver × Opt) :=
  (kconfigDebuggingTable.flatMap fun e => e.2.2.map fun t => (e.1, e.2.1, parseOpt t)) ++
  (kconfigCompatibilityTable.flatMap fun e => e.2.2.map fun t => (e.1, e.2.1, parseOpt t)) ++
  (kconfigMoreSyscallsTable.map fun e => (e.1, e.2.1, parseOpt e.2.2.1)) ++
  ((variantTable k abi bits32).map fun e => (e.1, e.2.1, parseOpt e.2.2.1))

/-- same name and different values only in disjoint ranges -/
def noConflict (l : List (Ver × Ver × Opt)) : Bool :=
  l.all fun a => l.all fun b => if a.2.2.1 = b.2.2.1 then a.2.2.2 = b.2.2.2 || verLe a.2.1 b.1 || verLe b.2.1 a.1 else true

theorem allEntries_of {k : Kind} {abi : Str} {bits32 : Bool} {v : Ver} {o : Opt} (h : SetWhileConfiguring k abi bits32 v o)
    (ho : '=' ∉ o.1) : ∃ s e, (s, e, o) ∈ allEntries k abi bits32 ∧ s ≤ v ∧ v < e := by
  unfold allEntries
  rcases h with h | h | h | h
  · obtain ⟨s, e, l, h1, h2, h3, h4⟩ := h
    refine ⟨s, e, ?_, h2, h3⟩
    simp only [List.mem_append, List.mem_flatMap, List.mem_map]
    exact Or.inl (Or.inl (Or.inl ⟨_, h1, _, h4, by rw [parseOpt_of_text o ho]⟩))
  · obtain ⟨s, e, l, h1, h2, h3, h4⟩ := h
    refine ⟨s, e, ?_, h2, h3⟩
    simp only [List.mem_append, List.mem_flatMap, List.mem_map]
    exact Or.inl (Or.inl (Or.inr ⟨_, h1, _, h4, by rw [parseOpt_of_text o ho]⟩))
  · obtain ⟨d, s, e, h1, h2, h3⟩ := h
    refine ⟨s, e, ?_, h2, h3⟩
    simp only [List.mem_append, List.mem_map]
    exact Or.inl (Or.inr ⟨_, h1, by rw [parseOpt_of_text o ho]⟩)
  · obtain ⟨d, s, e, h1, h2, h3⟩ := h
    refine ⟨s, e, ?_, h2, h3⟩
    simp only [List.mem_append, List.mem_map]
    exact Or.inr ⟨_, h1, by rw [parseOpt_of_text o ho]⟩

theorem allEntries_noConflict (k : Kind) (abi : Str) (bits32 : Bool) : noConflict (allEntries k abi bits32) = true := by
  unfold allEntries variantTable
  cases k <;> unfold ctorAdds <;> simp only
  · split <;> decide +kernel
  · decide +kernel
  · split <;> decide +kernel
  · split <;> decide +kernel
  · split <;> decide +kernel
  · split <;> decide +kernel

/-- C78: while configuring any variant at any version, no option is given two values. -/
theorem C78_consistent (k : Kind) (abi : Str) (bits32 : Bool) (v : Ver) (name x y : Str) (hn : '=' ∉ name)
    (hx : SetWhileConfiguring k abi bits32 v (name, x)) (hy : SetWhileConfiguring k abi bits32 v (name, y)) : x = y := by
  obtain ⟨s, e, h1, h2, h3⟩ := allEntries_of hx hn
  obtain ⟨s', e', g1, g2, g3⟩ := allEntries_of hy hn
  have hc := allEntries_noConflict k abi bits32
  unfold noConflict at hc
  have := List.all_eq_true.1 (List.all_eq_true.1 hc _ h1) _ g1
  simp only [if_true, Bool.or_eq_true, decide_eq_true_eq, verLe_iff] at this
  rcases this with (h | h) | h
  · exact h
  · exact (ver_not_both h h3 g2).elim
  · exact (ver_not_both h g3 h2).elim

example : '=' ∉ cs!"IA32_EMULATION" ∧ SetWhileConfiguring .x86 cs!"x64" false [5, 10] (cs!"IA32_EMULATION", cs!"y") :=
  ⟨by decide, Or.inr (Or.inr (Or.inr ⟨[], versionZero, versionInf, by decide +kernel, by decide, by decide⟩))⟩

/-! ## C82 -/

/-- while configuring a variant at version `v`, some option that is set declares the dependency `d` -/
def DeclaredDep (k : Kind) (abi : Str) (bits32 : Bool) (v : Ver) (d : Opt) : Prop :=
  ∃ opt deps, Opt.text d ∈ deps ∧ (Covers kconfigMoreSyscallsTable v opt deps ∨ Covers (variantTable k abi bits32) v opt deps)

/-- all declared dependencies with their ranges -/
def allDeps (k : Kind) (abi : Str) (bits32 : Bool) : List (Ver × Ver × Opt) :=
  (kconfigMoreSyscallsTable ++ variantTable k abi bits32).flatMap fun e => e.2.2.2.map fun d => (e.1, e.2.1, parseOpt d)

/-- no dependency on another value of an option set in an overlapping range -/
def depsAgree (ds l : List (Ver × Ver × Opt)) : Bool :=
  ds.all fun a => l.all fun b => if a.2.2.1 = b.2.2.1 then a.2.2.2 = b.2.2.2 || verLe a.2.1 b.1 || verLe b.2.1 a.1 else true

theorem allDeps_agree (k : Kind) (abi : Str) (bits32 : Bool) :
    depsAgree (allDeps k abi bits32) (allEntries k abi bits32) = true := by
  unfold allDeps allEntries variantTable
  cases k <;> unfold ctorAdds <;> simp only
  · split <;> decide +kernel
  · decide +kernel
  · split <;> decide +kernel
  · split <;> decide +kernel
  · split <;> decide +kernel
  · split <;> decide +kernel

/-- C82: what an option declares it needs is never set to another value by the same configuration. -/
theorem C82_dependencies_consistent (k : Kind) (abi : Str) (bits32 : Bool) (v : Ver) (name x y : Str) (hn : '=' ∉ name)
    (hx : DeclaredDep k abi bits32 v (name, x)) (hy : SetWhileConfiguring k abi bits32 v (name, y)) : x = y := by
  obtain ⟨opt, deps, hd, hc⟩ := hx
  obtain ⟨s, e, h1, h2, h3⟩ : ∃ s e, (s, e, (name, x)) ∈ allDeps k abi bits32 ∧ s ≤ v ∧ v < e := by
    unfold allDeps
    rcases hc with ⟨s, e, h1, h2, h3⟩ | ⟨s, e, h1, h2, h3⟩
    · refine ⟨s, e, ?_, h2, h3⟩
      simp only [List.mem_flatMap, List.mem_map, List.mem_append]
      exact ⟨_, Or.inl h1, _, hd, by rw [parseOpt_of_text _ hn]⟩
    · refine ⟨s, e, ?_, h2, h3⟩
      simp only [List.mem_flatMap, List.mem_map, List.mem_append]
      exact ⟨_, Or.inr h1, _, hd, by rw [parseOpt_of_text _ hn]⟩
  obtain ⟨s', e', g1, g2, g3⟩ := allEntries_of hy hn
  have hc := allDeps_agree k abi bits32
  unfold depsAgree at hc
  have := List.all_eq_true.1 (List.all_eq_true.1 hc _ h1) _ g1
  simp only [if_true, Bool.or_eq_true, decide_eq_true_eq, verLe_iff] at this
  rcases this with (h | h) | h
  · exact h
  · exact (ver_not_both h h3 g2).elim
  · exact (ver_not_both h g3 h2).elim

example : DeclaredDep .x86 cs!"i386" true [4, 0] (cs!"X86_BIGSMP", cs!"y") ∧
    SetWhileConfiguring .x86 cs!"i386" true [4, 0] (cs!"X86_BIGSMP", cs!"y") :=
  ⟨⟨cs!"NUMA=y", [cs!"SMP=y", cs!"HIGHMEM64G=y", cs!"X86_BIGSMP=y"], by decide,
    Or.inr ⟨[2, 6, 29], versionInf, by decide +kernel, by decide, by decide⟩⟩,
   Or.inr (Or.inr (Or.inr ⟨[cs!"SMP=y"], versionZero, versionInf, by decide +kernel, by decide, by decide⟩))⟩

/-! ## C80 -/

/-- C80 fails: on a kernel older than 3.7, `make oldconfig` is given a thousand newlines but not a pipe to read them from. -/
theorem C80_input_refuted : ¬ ∀ (w : World) (b : Builder) (s : BState), s.hist = [] → ∀ r ∈ (configure w b s).2.hist,
    r.input ≠ none → r.stdinPipe = true := by
  intro h
  have := h (okWorld cs!"3.6.0\n") exBuilder {} rfl
  revert this
  decide +kernel

/-- C80, the part that holds: from 3.7 on no command is given any input, so nothing is lost. -/
theorem C80_input_partial (w : World) (b : Builder) (s : BState)
    (hv : ∀ h r v, r.argv = [cs!"make", cs!"kernelversion"] → versionFromStr (w.output h r) = some v → [3, 7] ≤ v) :
    ∃ R, (configure w b s).2.hist = s.hist ++ R ∧ ∀ r ∈ R, r.input = none :=
  configure_noInput w b s hv

/-! ## C81 -/

/-- the file `make` works with, given its working directory: `.config` there, or in the directory named by `O=` -/
def makeConfigFile (dir : Path) (outdir : Option Path) : Path :=
  (match outdir with
    | some o => dir.join o
    | none => dir).join ⟨false, [cs!".config"]⟩

/-- C81 fails: with a relative KDIR, the file that `scripts/config` edits, resolved in its own working directory, is not
the one that `make` uses there. -/
theorem C81_same_config_refuted : ¬ ∀ (w : World) (b : Builder),
    (w.cwd.join b.kdir).join b.configFile = makeConfigFile (w.cwd.join b.kdir) b.outdir ∧
    b.configFile.absolute w.cwd = makeConfigFile (w.cwd.join b.kdir) b.outdir := by
  intro h
  have := h (okWorld []) { exBuilder with kdir := ⟨false, [cs!"linux"]⟩ }
  revert this
  decide +kernel

/-- C81, the part that holds: with absolute paths `make`, `scripts/config` and the program itself use one file. -/
theorem C81_same_config_partial (w : World) (b : Builder) (hk : b.kdir.abs = true) (ho : ∀ o, b.outdir = some o → o.abs = true) :
    (w.cwd.join b.kdir).join b.configFile = makeConfigFile (w.cwd.join b.kdir) b.outdir ∧
    b.configFile.absolute w.cwd = makeConfigFile (w.cwd.join b.kdir) b.outdir := by
  unfold makeConfigFile Builder.configFile Path.absolute
  cases h : b.outdir with
  | none => simp [Path.join, hk]
  | some o => have := ho o h; simp [Path.join, hk, this]

example : exBuilder.kdir.abs = true ∧ ∀ o, exBuilder.outdir = some o → o.abs = true := ⟨rfl, by intro o h; cases h⟩

end Verif
