import Verif.Lemmas.Main2
/-! # Lemmas: the analysis -/
set_option autoImplicit false

namespace Verif
open Spec

theorem mapRes_ok {α β : Type} (f : α → Res β) : ∀ (l : List α) (l' : List β), mapRes f l = .ok l' →
    l'.length = l.length ∧ ∀ (i : Nat) (x : α), l[i]? = some x → ∃ y, l'[i]? = some y ∧ f x = .ok y := by
  intro l
  induction l with
  | nil => intro l' h; simp only [mapRes] at h; injection h with h; subst h; simp
  | cons x l ih =>
    intro l' h
    simp only [mapRes, bind, Except.bind] at h
    cases hx : f x with
    | error e => rw [hx] at h; cases h
    | ok y =>
      rw [hx] at h
      simp only [] at h
      cases hl : mapRes f l with
      | error e => rw [hl] at h; cases h
      | ok ys =>
        rw [hl] at h
        injection h with h
        subst h
        obtain ⟨h1, h2⟩ := ih ys hl
        refine ⟨by simp [h1], ?_⟩
        intro i z hz
        cases i with
        | zero => simp at hz; subst hz; exact ⟨y, by simp, hx⟩
        | succ i =>
          obtain ⟨u, hu, hf⟩ := h2 i z (by simpa using hz)
          exact ⟨u, by simpa using hu, hf⟩

theorem maybeRel_shown (p kdir : Path) : ∃ q, maybeRel p (some kdir) = .ok q ∧ Shown kdir p q := by
  unfold maybeRel
  simp only []
  split
  · rename_i h
    unfold Path.relativeTo
    rw [if_pos h]
    refine ⟨_, rfl, Or.inl ⟨p.parts.drop kdir.parts.length, ?_, rfl⟩⟩
    unfold Path.isRelativeTo at h
    simp only [Bool.and_eq_true, beq_iff_eq, List.isPrefixOf_iff_prefix] at h
    obtain ⟨h1, t, h2⟩ := h
    cases p
    simp only at h1 h2
    subst h1 h2
    simp
  · rename_i h
    refine ⟨p, rfl, Or.inr ⟨?_, rfl⟩⟩
    rintro ⟨rest, hr⟩
    apply h
    rw [hr]
    simp [Path.isRelativeTo]

theorem relativize_spec (kdir : Option Path) (abs : Bool) (p : Syscall) : ∃ q, relativize kdir abs p = .ok q ∧
    match kdir, abs with
    | some kdir, false => PathChanged (Shown kdir) p q
    | _, _ => q = p := by
  unfold relativize
  cases hf : p.file with
  | none =>
    refine ⟨p, rfl, ?_⟩
    split
    · exact ⟨none, by cases p; simp only at hf; subst hf; rfl, by rw [hf]; trivial⟩
    · rfl
  | some f =>
    simp only []
    cases kdir with
    | none => exact ⟨p, rfl, rfl⟩
    | some kdir =>
      cases abs with
      | true => exact ⟨p, rfl, rfl⟩
      | false =>
        obtain ⟨q, h1, h2⟩ := maybeRel_shown f kdir
        refine ⟨{ p with file := some q }, ?_, some q, rfl, by rw [hf]; exact h2⟩
        simp only [Option.isSome_some, Bool.not_false, Bool.and_self, if_true, bind, Except.bind, h1]

theorem relativize_all (kdir : Option Path) (abs : Bool) (l : List Syscall) : ∃ l', mapRes (relativize kdir abs) l = .ok l' := by
  induction l with
  | nil => exact ⟨[], rfl⟩
  | cons p l ih =>
    obtain ⟨l', hl⟩ := ih
    obtain ⟨q, hq, -⟩ := relativize_spec kdir abs p
    exact ⟨q :: l', by simp only [mapRes, bind, Except.bind, hq, hl]⟩

/-- a checkout, or nothing -/
theorem gitCheckout_spec (w : MWorld) (kdir : Option Path) (ref : Str) (s : MState) :
    ∃ r, r.argv = [cs!"git", cs!"checkout", ref] ∧ r.cwd = kdir ∧ (gitCheckout w kdir ref s).2.b.hist = s.b.hist ++ [r] ∧
      (gitCheckout w kdir ref s).2.dirs = s.dirs ∧ (gitCheckout w kdir ref s).2.out = s.out ∧
      (gitCheckout w kdir ref s).2.err = s.err := by
  have h : ∀ b : BState, (ensureCommand w.toWorld [cs!"git", cs!"checkout", ref] kdir none b).2 =
      b.push (b.runOf [cs!"git", cs!"checkout", ref] kdir none) := by
    intro b
    unfold ensureCommand
    rw [bm_bind, exec_eq]
    by_cases hi : w.interrupt = some (.run b.hist.length)
    · rw [if_pos hi]
    · rw [if_neg hi]
      simp only []
      cases w.status b.hist (b.runOf [cs!"git", cs!"checkout", ref] kdir none) with
      | none => simp only []; unfold notStarted; split <;> rfl
      | some st => simp only []; split <;> rfl
  have key : (gitCheckout w kdir ref s).2 = { s with b := s.b.push (s.b.runOf [cs!"git", cs!"checkout", ref] kdir none) } := by
    unfold gitCheckout
    rw [mm_bind]
    unfold MM.ofB
    have hb := h s.b
    cases he : ensureCommand w.toWorld [cs!"git", cs!"checkout", ref] kdir none s.b with
    | mk res b =>
      rw [he] at hb
      simp only at hb
      subst hb
      cases res <;> rfl
  exact ⟨_, rfl, rfl, by rw [key]; rfl, by rw [key], by rw [key], by rw [key]⟩

/-- What the analysis does: commands, then at most one checkout, then the output. -/
structure AnalysisDone (w : MWorld) (v : Verbosity) (args : Args) (n : Option Str) (s : MState) (res : Res Nat) (s' : MState) : Prop where
  dirs : s'.dirs = s.dirs
  hist : ∃ A G, s'.b.hist = s.b.hist ++ A ++ G ∧ (∀ r ∈ A, Runs cs!"readelf" r) ∧
    (G = [] ∨ ∃ r p e a ver ref, G = [r] ∧ args.checkout = some cs!"auto" ∧ vmlinuxPath args = some p ∧ LoadedFrom w s.b.hist p e ∧
      GoodKernel n e a ver ∧ versionTag ver = .ok ref ∧ r.argv = [cs!"git", cs!"checkout", ref] ∧ r.cwd = pathOf args.kdir) ∧
    (s'.out ≠ s.out → args.checkout = some cs!"auto" → G ≠ [])
  status : ∀ k, res = .ok k → k = 0 ∨ k = 1 ∨ k = 127
  noOutput : res ≠ .ok 0 → s'.out = s.out
  output : res = .ok 0 → ∃ p e a ver hist scs text, vmlinuxPath args = some p ∧ LoadedFrom w s.b.hist p e ∧ GoodKernel n e a ver ∧
    Printed w args p hist e a ver scs text ∧ s.b.hist <+: hist ∧ s'.b.hist = hist ∧ s'.out = some text ∧
    (v.silent = false → ∃ more, s'.err = s.err ++ more ++ resultMessages (pathOf args.kdir) scs)

theorem analyze_spec (w : MWorld) (v : Verbosity) (args : Args) (n : Option Str) (s : MState) :
    AnalysisDone w v args n s (mainAnalyze w v args n s).1 (mainAnalyze w v args n s).2 := by
  -- outcomes without anything done but messages
  have quiet : ∀ (k : Nat) (s' : MState), k = 1 ∨ k = 127 → After (Runs cs!"readelf") s s' →
      AnalysisDone w v args n s (.ok k) s' := by
    intro k s' hk ⟨⟨R, h1, h2⟩, h3, h4, h5⟩
    refine ⟨h3, ⟨R, [], by simpa using h1, h2, Or.inl rfl, fun h => absurd h4 h⟩, ?_, fun _ => h4, ?_⟩
    · intro k' hk'; injection hk' with hk'; subst hk'; exact Or.inr hk
    · intro h; injection h with h; subst h; omega
  have failed : ∀ (x : Exc) (s' : MState), After (Runs cs!"readelf") s s' → AnalysisDone w v args n s (.error x) s' := by
    intro x s' ⟨⟨R, h1, h2⟩, h3, h4, h5⟩
    exact ⟨h3, ⟨R, [], by simpa using h1, h2, Or.inl rfl, fun h => absurd h4 h⟩, by simp, fun _ => h4, by simp⟩
  unfold mainAnalyze
  simp only []
  split
  · rw [mm_bind, eprint_eq]
    exact quiet 1 _ (Or.inl rfl) (.say _ _ _)
  · cases hp : vmlinuxPath args with
    | none => exact failed .type _ (.refl s)
    | some p =>
      simp only []
      rw [mm_bind, mm_get]
      simp only []
      split
      · simp only [mm_bind, eprint_eq, mm_pure]
        exact quiet 1 _ (Or.inl rfl) ((After.say _ _ _).trans (.say _ _ _))
      · split
        · simp only [mm_bind, eprint_eq, mm_pure]
          exact quiet 127 _ (Or.inr rfl) (.say _ _ _)
        · rw [mm_bind]
          have hg := goes_catch w v n (detectedArch w p s) (goes_newAnalysis w n p (pathOf args.kdir)) s
          cases hk : catchInit w v n (detectedArch w p s) (newAnalysis w n p (pathOf args.kdir)) s with
          | mk r1 s1 =>
            rw [hk] at hg
            simp only at hg
            cases r1 with
            | error x => exact failed x _ hg
            | ok k =>
              obtain ⟨hload, hgood⟩ := newAnalysis_ok w n p _ s s1 k (catch_ok w v n _ hk)
              simp only [mm_bind, eprint_eq]
              have hg2 : After (Runs cs!"readelf") s (s1.say v (cs!"Detected kernel version: " ++ versionStr k.version cs!"vmlinux")) :=
                hg.trans (.say _ _ _)
              have herr2 : v.silent = false → ∃ more, (s1.say v (cs!"Detected kernel version: " ++ versionStr k.version cs!"vmlinux")).err = s.err ++ more := by
                intro hv
                have h0 : s1.err = s.err := by
                  have := wordless_newAnalysis w n p (pathOf args.kdir) s
                  rw [catch_ok w v n _ hk] at this
                  exact this
                exact ⟨_, by rw [say_err _ _ _ hv, h0]⟩
              generalize (s1.say v (cs!"Detected kernel version: " ++ versionStr k.version cs!"vmlinux")) = s2 at hg2 herr2 ⊢
              -- the part after the checkout
              have tail : ∀ (s3 : MState) (A G : List Run), s3.b.hist = s.b.hist ++ A ++ G → (∀ r ∈ A, Runs cs!"readelf" r) →
                  s3.dirs = s.dirs → s3.out = s.out → (v.silent = false → ∃ more, s3.err = s.err ++ more) →
                  (G = [] ∨ ∃ r p e a ver ref, G = [r] ∧ args.checkout = some cs!"auto" ∧ vmlinuxPath args = some p ∧ LoadedFrom w s.b.hist p e ∧
                    GoodKernel n e a ver ∧ versionTag ver = .ok ref ∧ r.argv = [cs!"git", cs!"checkout", ref] ∧ r.cwd = pathOf args.kdir) →
                  (args.checkout = some cs!"auto" → G ≠ []) →
                  AnalysisDone w v args n s (mainReport w v args k p s3).1 (mainReport w v args k p s3).2 := by
                intro s3 A G hh hA hd ho he hG hG'
                unfold mainReport
                rw [mm_bind, mm_get]
                simp only [mm_bind, mm_lift]
                cases hx : extractSyscalls k.arch k.elf k.version
                    (kenvOf w s3.b.hist k.arch k.elf p (pathOf args.kdir) (pathOf args.remap)) with
                | error x => exact ⟨hd, ⟨A, G, hh, hA, hG, fun h => absurd ho h⟩, by simp, fun _ => ho, by simp⟩
                | ok found =>
                  simp only []
                  split
                  · refine ⟨hd, ⟨A, G, hh, hA, hG, fun h => absurd ho h⟩, ?_, fun _ => ho, ?_⟩
                    · intro k' hk'; simp only [mm_pure, Except.ok.injEq] at hk'; exact Or.inr (Or.inl hk'.symm)
                    · intro h; simp [mm_pure] at h
                  · rename_i hne
                    obtain ⟨scs, hscs⟩ := relativize_all (pathOf args.kdir) args.absolutePaths found
                    obtain ⟨hlen, hrel⟩ := mapRes_ok _ _ _ hscs
                    simp only [mm_bind, mm_lift, hscs, eprints_eq]
                    cases ht : outputSyscalls w.jinja w.css w.js ⟨k.version, cs!"vmlinux", k.arch.adjustAbi k.elf, scs⟩ args.format with
                    | error x =>
                      have hs3 : ∀ ls, (s3.sayAll v ls).dirs = s3.dirs ∧ (s3.sayAll v ls).b = s3.b ∧ (s3.sayAll v ls).out = s3.out := by
                        intro ls; unfold MState.sayAll; split <;> exact ⟨rfl, rfl, rfl⟩
                      obtain ⟨e1, e2, e3⟩ := hs3 (resultMessages (pathOf args.kdir) scs)
                      exact ⟨by simp only [e1, hd], ⟨A, G, by simp only [e2, hh], hA, hG, fun h => absurd (by simp only [e3, ho]) h⟩,
                        by simp, fun _ => by simp only [e3, ho], by simp⟩
                    | ok text =>
                      simp only [mm_modify, mm_pure]
                      have hs3 : ∀ ls, (s3.sayAll v ls).dirs = s3.dirs ∧ (s3.sayAll v ls).b = s3.b := by
                        intro ls; unfold MState.sayAll; split <;> exact ⟨rfl, rfl⟩
                      obtain ⟨e1, e2⟩ := hs3 (resultMessages (pathOf args.kdir) scs)
                      refine ⟨by simp only [e1, hd], ⟨A, G, by simp only [e2, hh], hA, hG, fun _ h => hG' h⟩, ?_, ?_, ?_⟩
                      · intro k' hk'; injection hk' with hk'; exact Or.inl hk'.symm
                      · intro h; exact absurd rfl h
                      · intro _
                        refine ⟨p, k.elf, k.arch, k.version, s3.b.hist, scs, text, hp, hload, hgood, ⟨found, hx, ?_, hlen, ?_, ht⟩,
                          ?_, by simp only [e2], rfl, ?_⟩
                        · intro hnil; rw [hnil] at hne; exact hne rfl
                        · intro i q hq
                          obtain ⟨y, hy, hf⟩ := hrel i q hq
                          obtain ⟨y', hy', hsp⟩ := relativize_spec (pathOf args.kdir) args.absolutePaths q
                          rw [hf] at hy'
                          injection hy' with hy'
                          subst hy'
                          exact ⟨y, hy, hsp⟩
                        · exact ⟨A ++ G, by rw [hh, List.append_assoc]⟩
                        · intro hv
                          obtain ⟨more, hmore⟩ := he hv
                          refine ⟨more, ?_⟩
                          simp only [MState.sayAll, hv]
                          simp [hmore]
              obtain ⟨⟨A, hA1, hA2⟩, hd2, ho2, hst2⟩ := hg2
              unfold autoCheckout
              by_cases hauto : args.checkout = some cs!"auto"
              · simp only [if_pos hauto, mm_bind, mm_lift]
                cases htag : versionTag k.version with
                | error x => exact failed x _ ⟨⟨A, hA1, hA2⟩, hd2, ho2, hst2⟩
                | ok ref =>
                  simp only [eprint_eq]
                  obtain ⟨r, hr1, hr2, hr3, hr4, hr5, hr6⟩ := gitCheckout_spec w (pathOf args.kdir) ref (s2.say v (cs!"Checking out to " ++ ref))
                  rw [say_b, hA1] at hr3
                  rw [say_dirs, hd2] at hr4
                  rw [say_out, ho2] at hr5
                  cases hc : gitCheckout w (pathOf args.kdir) ref (s2.say v (cs!"Checking out to " ++ ref)) with
                  | mk r3 s3 =>
                    rw [hc] at hr3 hr4 hr5 hr6
                    simp only at hr3 hr4 hr5 hr6
                    have hG : [r] = [] ∨ ∃ r' p e a ver ref, [r] = [r'] ∧ args.checkout = some cs!"auto" ∧ vmlinuxPath args = some p ∧
                        LoadedFrom w s.b.hist p e ∧ GoodKernel n e a ver ∧ versionTag ver = .ok ref ∧
                        r'.argv = [cs!"git", cs!"checkout", ref] ∧ r'.cwd = pathOf args.kdir :=
                      Or.inr ⟨r, p, k.elf, k.arch, k.version, ref, rfl, hauto, hp, hload, hgood, htag, hr1, hr2⟩
                    cases r3 with
                    | error x => exact ⟨hr4, ⟨A, [r], hr3, hA2, hG, fun h => absurd hr5 h⟩, by simp, fun _ => hr5, by simp⟩
                    | ok u =>
                      refine tail s3 A [r] hr3 hA2 hr4 hr5 ?_ hG (by simp)
                      intro hv
                      obtain ⟨more, hmore⟩ := herr2 hv
                      rw [hr6, say_err _ _ _ hv, hmore]
                      exact ⟨more ++ [cs!"Checking out to " ++ ref], by simp⟩
              · simp only [if_neg hauto, mm_pure]
                exact tail s2 A [] (by simpa using hA1) hA2 hd2 ho2 herr2 (Or.inl rfl) (fun h => absurd h hauto)

end Verif
