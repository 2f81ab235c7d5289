import Verif.Spec.Later
import Verif.Props.Crash
/-! # Properties of histories of runs on one source tree (C123) -/
set_option autoImplicit false

namespace Verif
open Spec

theorem Spec.OnlyFlag.first {M a mid post : Str} (h : OnlyFlag M a mid post) : FirstFlag M a mid post :=
  ⟨h.1, fun a' mid' post' h' => by rw [h.2 a' mid' post' h']⟩

/-- the digits do not occur in the text before the level -/
theorem digit_not_mem {text a mid post : Str} (h : FlagAt text a mid post) {d : Char} (hd : d = '0' ∨ d = '1' ∨ d = '2') : d ∉ mid := by
  obtain ⟨-, -, ⟨ws, ws', rfl, h1, h2⟩, -⟩ := h
  have hs : isSpace d = false := by rcases hd with rfl | rfl | rfl <;> decide
  have w1 : d ∉ ws := fun e => by rw [h1 d e] at hs; exact absurd hs (by simp)
  have w2 : d ∉ ws' := fun e => by rw [h2 d e] at hs; exact absurd hs (by simp)
  have l1 : d ∉ cs!"KBUILD_CFLAGS" := by rcases hd with rfl | rfl | rfl <;> decide
  have l2 : d ∉ cs!"+=" := by rcases hd with rfl | rfl | rfl <;> decide
  have l3 : d ∉ cs!"-O" := by rcases hd with rfl | rfl | rfl <;> decide
  simp only [List.mem_append, not_or]
  exact ⟨⟨⟨⟨l1, w1⟩, l2⟩, w2⟩, l3⟩

/-- the rewritten text has no such line -/
theorem Spec.OnlyFlag.changed {M a mid post : Str} (h : OnlyFlag M a mid post) {d : Char} (hd : d = '0' ∨ d = '1') :
    NoFlag (a ++ mid ++ d :: post) := by
  intro a' mid' post' h'
  have hd2 : d ≠ '2' := by rcases hd with rfl | rfl <;> decide
  have hdn : d ≠ '\n' := by rcases hd with rfl | rfl <;> decide
  have hdm : d ∉ mid' := digit_not_mem h' (hd.imp id .inl)
  have h2m : '2' ∉ mid := digit_not_mem h.1 (.inr (.inr rfl))
  obtain ⟨e, hl, hm, rest, hp⟩ := h'
  have hM : M = a ++ mid ++ '2' :: post := h.1.1
  rw [List.append_assoc a' mid'] at e
  rcases List.append_eq_append_iff.1 e with ⟨z, e1, e2⟩ | ⟨z, e1, e2⟩
  · -- the other line begins after the digit, or right at it
    rcases z with _ | ⟨z0, z⟩
    · rw [List.nil_append] at e2
      rcases mid' with _ | ⟨m0, mid'⟩
      · simp only [List.nil_append, List.cons.injEq] at e2; exact hd2 e2.1
      · simp only [List.cons_append, List.cons.injEq] at e2; exact hdm (by rw [e2.1]; simp)
    · simp only [List.cons_append, List.cons.injEq] at e2
      obtain ⟨rfl, e2⟩ := e2
      have hz : z ≠ [] := by
        rintro rfl
        rcases hl with hl | hl
        · rw [hl] at e1; simp at e1
        · rw [e1] at hl; simp at hl; exact hdn hl
      have hf : FlagAt M (a ++ mid ++ '2' :: z) mid' post' := by
        refine ⟨by rw [hM, e2]; simp [List.append_assoc], .inr ?_, hm, rest, hp⟩
        rcases hl with hl | hl
        · rw [hl] at e1; simp at e1
        · rw [e1] at hl
          rw [List.getLast?_append_of_ne_nil _ (List.cons_ne_nil _ _), List.getLast?_cons_of_ne_nil hz] at hl
          rw [List.getLast?_append_of_ne_nil _ (List.cons_ne_nil _ _), List.getLast?_cons_of_ne_nil hz]
          exact hl
      have := congrArg List.length (h.2 _ _ _ hf)
      simp at this
  · -- it begins before
    rcases List.append_eq_append_iff.1 e2 with ⟨y, f1, f2⟩ | ⟨y, f1, f2⟩
    · rcases y with _ | ⟨y0, y⟩
      · simp only [List.nil_append, List.cons.injEq] at f2; exact hd2 f2.1.symm
      simp only [List.cons_append, List.cons.injEq] at f2
      obtain ⟨rfl, f2⟩ := f2
      rcases y with _ | ⟨y1, y⟩
      · rw [hp] at f2
        simp only [List.nil_append, List.cons.injEq] at f2
        exact hdn f2.1.symm
      rw [hp] at f2
      simp only [List.cons_append, List.cons.injEq] at f2
      obtain ⟨rfl, f2⟩ := f2
      have hf : FlagAt M a' mid' ('\n' :: y ++ '2' :: post) :=
        ⟨by rw [hM, e1, f1]; simp [List.append_assoc], hl, hm, _, rfl⟩
      have ha := h.2 _ _ _ hf
      rw [ha] at e1
      have := List.append_cancel_left e1
      exact h2m (by rw [this, f1]; simp)
    · rcases y with _ | ⟨y0, y⟩
      · simp only [List.nil_append, List.cons.injEq] at f2; exact hd2 f2.1
      · simp only [List.cons_append, List.cons.injEq] at f2
        exact hdm (by rw [f1, f2.1]; simp)

theorem Spec.FlagAt.extend {c a mid post : Str} (h : FlagAt c a mid post) (t : Str) : FlagAt (c ++ t) a mid (post ++ t) := by
  obtain ⟨h1, h2, h3, rest, rfl⟩ := h
  exact ⟨by rw [h1]; simp [List.append_assoc], h2, h3, rest ++ t, rfl⟩

theorem Spec.NoFlag.prefix {c m : Str} (h : NoFlag m) (hc : c <+: m) : NoFlag c := by
  obtain ⟨t, rfl⟩ := hc
  exact fun a mid post hf => h _ _ _ (hf.extend t)

theorem Spec.OnlyFlag.prefix {c M a mid post : Str} (h : OnlyFlag M a mid post) (hc : c <+: M) :
    NoFlag c ∨ ∃ post', post' <+: post ∧ OnlyFlag c a mid post' := by
  by_cases hn : NoFlag c
  · exact .inl hn
  · right
    unfold NoFlag at hn
    simp only [not_forall, not_not] at hn
    obtain ⟨a', mid', post', hf⟩ := hn
    obtain ⟨t, rfl⟩ := hc
    have ho : ∀ a'' mid'' post'', FlagAt c a'' mid'' post'' → a'' = a := fun _ _ _ h' => h.2 _ _ _ (h'.extend t)
    have he := hf.extend t
    obtain rfl := ho _ _ _ hf
    obtain ⟨-, rfl, rfl⟩ := FirstFlag_unique h.first ⟨he, fun a'' m'' p'' h' => by rw [h.2 _ _ _ h']⟩
    exact ⟨post', List.prefix_append _ _, hf, ho⟩

theorem no_cr {c M : Str} (h : '\r' ∉ M) (hc : c <+: M) : '\r' ∉ c := fun e => h (hc.subset e)

/-- one run -/
theorem runLeaves_from {M a mid post : Str} (hr : '\r' ∉ M) (h : OnlyFlag M a mid post) {c c' : Str}
    (hc : c <+: M ∨ c <+: a ++ mid ++ '0' :: post ∨ c <+: a ++ mid ++ '1' :: post) (hs : RunLeaves c c') :
    c' = c ∨ (c <+: M ∧ (c' <+: c ∨ (c'.length = c.length ∧ c' ≠ M ∧ (c' <+: a ++ mid ++ '0' :: post ∨ c' <+: a ++ mid ++ '1' :: post)))) := by
  obtain ⟨sig, ok, opt, hs⟩ := hs
  have hconst : '\r' ∉ c → (opt = true → NoFlag c) → c' = c := by
    intro hr' hn
    rw [(C122_unpatched sig ok opt c hr' hn).2] at hs
    exact List.mem_singleton.1 hs
  have hd : ∀ d : Char, (d = '0' ∨ d = '1') → '\r' ∉ a ++ mid ++ d :: post := by
    intro d hd e
    have hM : M = a ++ mid ++ '2' :: post := h.1.1
    have hdr : '\r' ≠ d := by rcases hd with rfl | rfl <;> decide
    rcases List.mem_append.1 e with e | e
    · exact hr (by rw [hM]; exact List.mem_append_left _ e)
    · rcases List.mem_cons.1 e with e | e
      · exact hdr e
      · exact hr (by rw [hM]; exact List.mem_append_right _ (List.mem_cons_of_mem _ e))
  rcases hc with hc | hc | hc
  · cases opt
    · exact .inl (hconst (no_cr hr hc) nofun)
    rcases h.prefix hc with hn | ⟨post', hp, ho⟩
    · exact .inl (hconst (no_cr hr hc) fun _ => hn)
    · right
      refine ⟨hc, ?_⟩
      have hcM : c = a ++ mid ++ '2' :: post' := ho.1.1
      have hpre : ∀ d : Char, a ++ mid ++ d :: post' <+: a ++ mid ++ d :: post := by
        intro d
        obtain ⟨t, rfl⟩ := hp
        exact ⟨t, by simp⟩
      have hne : ∀ d : Char, d ≠ '2' → a ++ mid ++ d :: post' ≠ M := by
        intro d hd e
        rw [h.1.1] at e
        have := List.append_cancel_left e
        simp only [List.cons.injEq] at this
        exact hd this.1
      rcases C122_contents sig ok c a mid post' (no_cr hr hc) ho.first c' hs with e | e | e
      · right
        rw [e]
        exact ⟨by rw [hcM]; simp, hne _ (by decide), .inl (hpre '0')⟩
      · right
        rw [e]
        exact ⟨by rw [hcM]; simp, hne _ (by decide), .inr (hpre '1')⟩
      · exact .inl e
  · exact .inl (hconst (no_cr (hd '0' (.inl rfl)) hc) fun _ => (h.changed (.inl rfl)).prefix hc)
  · exact .inl (hconst (no_cr (hd '1' (.inr rfl)) hc) fun _ => (h.changed (.inr rfl)).prefix hc)

/-! ## C123 -/

/-- C123: any number of runs, interrupted or killed whenever, leave the Makefile, or a piece of it, with the level 2, 0 or 1. -/
theorem C123_contents (M a mid post : Str) (hr : '\r' ∉ M) (h : OnlyFlag M a mid post) (c : Str) (hc : RunsLeave M c) :
    c <+: M ∨ c <+: a ++ mid ++ '0' :: post ∨ c <+: a ++ mid ++ '1' :: post := by
  induction hc with
  | none => exact .inl (List.prefix_refl _)
  | more _ hs ih =>
    rcases runLeaves_from hr h ih hs with rfl | ⟨h1, h2 | ⟨-, -, h2⟩⟩
    · exact ih
    · exact .inl (h2.trans h1)
    · exact .inr h2

/-- C123: a Makefile that was changed once is never repaired by later runs, whatever they do and however they end. -/
theorem C123_never_repaired (M a mid post : Str) (hr : '\r' ∉ M) (h : OnlyFlag M a mid post) (c c' : Str)
    (hc : RunsLeave M c) (hne : c ≠ M) (hc' : RunsLeave c c') : c' ≠ M := by
  have hd : ∀ c0, RunsLeave c c0 → (c0 <+: M ∨ c0 <+: a ++ mid ++ '0' :: post ∨ c0 <+: a ++ mid ++ '1' :: post) ∧ c0 ≠ M := by
    intro c0 h0
    induction h0 with
    | none => exact ⟨C123_contents M a mid post hr h _ hc, hne⟩
    | more _ hs ih =>
      obtain ⟨i1, i2⟩ := ih
      rcases runLeaves_from hr h i1 hs with rfl | ⟨h1, h2 | ⟨h2, h3, h4⟩⟩
      · exact ⟨i1, i2⟩
      · refine ⟨.inl (h2.trans h1), ?_⟩
        rintro rfl
        exact i2 (h1.eq_of_length (Nat.le_antisymm h1.length_le h2.length_le))
      · exact ⟨.inr h4, h3⟩
  exact (hd c' hc').2

/-- C123: without kills the Makefile is the original, has the level 0 or 1, or is empty. -/
theorem C123_finished (M a mid post : Str) (hr : '\r' ∉ M) (h : OnlyFlag M a mid post) (runs : List RunOf) :
    afterRuns M runs = M ∨ afterRuns M runs = a ++ mid ++ '0' :: post ∨ afterRuns M runs = a ++ mid ++ '1' :: post ∨ afterRuns M runs = [] := by
  have hstay : ∀ (rs : List RunOf) (c : Str), '\r' ∉ c → NoFlag c → afterRuns c rs = c := by
    intro rs
    induction rs with
    | nil => intro c _ _; rfl
    | cons r rs ih =>
      intro c hr hn
      unfold afterRuns
      rw [List.foldl_cons, (C122_unpatched r.sig r.ok r.opt c hr fun _ => hn).1]
      exact ih c hr hn
  have hd : ∀ d : Char, (d = '0' ∨ d = '1') → '\r' ∉ a ++ mid ++ d :: post := by
    intro d hd e
    have hM : M = a ++ mid ++ '2' :: post := h.1.1
    have hdr : '\r' ≠ d := by rcases hd with rfl | rfl <;> decide
    rcases List.mem_append.1 e with e | e
    · exact hr (by rw [hM]; exact List.mem_append_left _ e)
    · rcases List.mem_cons.1 e with e | e
      · exact hdr e
      · exact hr (by rw [hM]; exact List.mem_append_right _ (List.mem_cons_of_mem _ e))
  have hnil : NoFlag [] := findFlags_none (by decide)
  induction runs with
  | nil => exact .inl rfl
  | cons r rs ih =>
    have hstep : afterRuns M (r :: rs) = afterRuns (processC r.sig r.ok r.opt M).disk rs := rfl
    rw [hstep]
    have hv : (processC r.sig r.ok r.opt M).disk = M ∨ (processC r.sig r.ok r.opt M).disk = a ++ mid ++ '0' :: post ∨
        (processC r.sig r.ok r.opt M).disk = a ++ mid ++ '1' :: post ∨ (processC r.sig r.ok r.opt M).disk = [] := by
      rcases ho : r.opt with _ | _
      · exact .inl (C122_unpatched r.sig r.ok false M hr nofun).1
      · rw [C122_left r.sig r.ok M a mid post hr h.first]
        unfold leftBehind afterHandler
        repeat' split
        all_goals simp
    rcases hv with e | e | e | e
    · rw [e]; exact ih
    · rw [e, hstay rs _ (hd _ (.inl rfl)) (h.changed (.inl rfl))]; exact .inr (.inl rfl)
    · rw [e, hstay rs _ (hd _ (.inr rfl)) (h.changed (.inr rfl))]; exact .inr (.inr (.inl rfl))
    · rw [e, hstay rs _ (by simp) hnil]; exact .inr (.inr (.inr rfl))

/-- C123, partial: after any number of runs that were not killed and in which SIGINT was harmless the Makefile is the original. Missing:
other runs (`C123_later_refuted`). -/
theorem C123_later_partial (M : Str) (hr : '\r' ∉ M) (runs : List RunOf) (hh : ∀ r ∈ runs, r.Harmless) : afterRuns M runs = M := by
  induction runs with
  | nil => rfl
  | cons r rs ih =>
    have hstep : afterRuns M (r :: rs) = afterRuns (processC r.sig r.ok r.opt M).disk rs := rfl
    have hm : (processC r.sig r.ok r.opt M).disk = M := by
      by_cases hn : r.opt = true → NoFlag M
      · exact (C122_unpatched r.sig r.ok r.opt M hr hn).1
      · obtain ⟨ho, hn⟩ := Classical.not_imp.1 hn
        rcases hx : findFlags true M with _ | ⟨pre, post⟩
        · exact absurd (findFlags_none hx) hn
        · obtain ⟨a, mid, -, hf⟩ := findFlags_some hx
          obtain ⟨h1, h2, h3⟩ := hh r List.mem_cons_self
          rw [ho]
          exact C122_covered_partial r.sig r.ok M a mid post hr hf h1 h2 h3
    rw [hstep, hm]
    exact ih fun r' h' => hh r' (List.mem_cons_of_mem _ h')

/-- C123 in full is false: a first run with `--disable-opt` fails to build with -O0 and is interrupted while it builds with -O1. The second
run, without the option, builds with -O1. -/
theorem C123_later_refuted : ¬ ∀ (M : Str) (r r' : RunOf), '\r' ∉ M → r'.opt = false → (∀ m, r'.sig m = false) →
    afterRuns M [r, r'] = M := by
  intro h
  have := h exMakefile ⟨fun m => m = .make 1, fun _ => false, true⟩ ⟨fun _ => false, fun _ => true, false⟩ (by decide) rfl (fun _ => rfl)
  revert this
  decide +kernel

/-! ## The hypotheses can be met -/

theorem exOnlyFlag : OnlyFlag exMakefile cs!"ifdef X\nelse\n" cs!"KBUILD_CFLAGS\t+= -O" cs!"\nendif\n" := by
  refine ⟨exFirstFlag.2.1, fun a' mid' post' h => ?_⟩
  obtain ⟨h1, -, ⟨ws, ws', rfl, -, -⟩, -⟩ := h
  have hk : ∀ n ≤ exMakefile.length, startsWith (exMakefile.drop n) cs!"KBUILD_CFLAGS" = true → n = 13 := by decide
  have hl := congrArg List.length h1
  have h13 : a'.length = 13 := hk _ (by rw [hl]; simp) (by
    rw [h1, List.append_assoc, List.drop_left, startsWith_iff]; exact ⟨ws ++ cs!"+=" ++ ws' ++ cs!"-O" ++ '2' :: post', by simp⟩)
  have e := congrArg (List.take 13) h1
  rw [List.append_assoc, ← h13, List.take_left, h13] at e
  rw [← e]
  decide

example : RunsLeave exMakefile cs!"ifdef X\nelse\nKBUILD" ∧ cs!"ifdef X\nelse\nKBUILD" ≠ exMakefile :=
  ⟨.more (.none _) ⟨fun _ => false, fun _ => true, true, by decide +kernel⟩, by decide⟩

/-- two builds, the first interrupted while the exit handler is registered -/
example : (∀ r ∈ [(⟨fun m => m = .make 0, fun _ => true, true⟩ : RunOf), ⟨fun _ => false, fun _ => false, true⟩], r.Harmless) := by
  intro r hr
  simp only [List.mem_cons, List.not_mem_nil, or_false] at hr
  rcases hr with rfl | rfl
  · exact ⟨by decide, by decide, by decide⟩
  · exact ⟨by decide, by decide, by decide⟩

end Verif
