import Verif.Spec.ConfigTool
import Verif.Lemmas.Configure
/-! # Lemmas: `.config` files edited by `scripts/config` (C93) -/
set_option autoImplicit false

namespace Verif
open Spec

/-- as a line of the specification of `parse_config` -/
def CLine.conf : CLine → ConfLine
  | .assign n v => .assign [] (n, v) cs!"\n"
  | .notSet n => .comment [] (cs!" CONFIG_" ++ n ++ cs!" is not set\n")
  | .comment rest => .comment [] (rest ++ cs!"\n")
  | .empty => .blank cs!"\n"

theorem conf_text (l : CLine) : (CLine.conf l).text = l.text := by
  cases l <;> simp [CLine.conf, ConfLine.text, CLine.text]

theorem conf_wf (l : CLine) (h : l.WF) : (CLine.conf l).WF := by
  cases l with
  | assign n v => exact ⟨by simp, by decide, h.1, h.2⟩
  | notSet n => simp [CLine.conf, ConfLine.WF]
  | comment r => simp [CLine.conf, ConfLine.WF]
  | empty => exact (by decide : ∀ c ∈ cs!"\n", isSpace c = true)

theorem about_optLine (n : Str) (o : Opt) : (optLine o).about n = decide (toolName o.1 = n) := by
  unfold optLine
  split <;> rfl

theorem says_optLine (o : Opt) : (optLine o).says = some o.2 := by
  unfold optLine
  split
  · next h => rw [h]; rfl
  · rfl

theorem filter_map_about (f : List CLine) (m n : Str) (new : CLine) (hnew : new.about n = decide (m = n)) :
    (f.map fun l => if l.about m then new else l).filter (CLine.about n) =
      if m = n then (f.filter (CLine.about n)).map fun _ => new else f.filter (CLine.about n) := by
  have hex : ∀ l : CLine, l.about m = true → l.about n = decide (m = n) := by
    intro l hl
    cases l with
    | assign a v => simp [CLine.about] at hl ⊢; rw [hl]
    | notSet a => simp [CLine.about] at hl ⊢; rw [hl]
    | comment r => simp [CLine.about] at hl
    | empty => simp [CLine.about] at hl
  induction f with
  | nil => simp
  | cons l f ih =>
    rw [List.map_cons, List.filter_cons, List.filter_cons]
    by_cases hm : l.about m = true
    · rw [if_pos hm, hnew, hex l hm, ih]
      by_cases h : m = n <;> simp [h]
    · rw [if_neg hm, ih]
      by_cases h : m = n
      · subst h; simp [hm]
      · simp [h]

theorem valueOf_setOpt (f : List CLine) (o : Opt) (n : Str) :
    valueOf (setOpt f o) n = if toolName o.1 = n then some o.2 else valueOf f n := by
  unfold setOpt valueOf
  split
  · next hany =>
    rw [filter_map_about f _ n _ (about_optLine n o)]
    by_cases h : toolName o.1 = n
    · rw [if_pos h, if_pos h]
      subst h
      obtain ⟨l, hl, ha⟩ := List.any_eq_true.1 hany
      have : f.filter (CLine.about (toolName o.1)) ≠ [] := by
        intro e
        have := List.mem_filter.2 ⟨hl, ha⟩
        rw [e] at this
        cases this
      generalize f.filter (CLine.about (toolName o.1)) = g at this
      obtain ⟨g', x, rfl⟩ : ∃ g' x, g = g' ++ [x] := ⟨g.dropLast, g.getLast this, (List.dropLast_append_getLast this).symm⟩
      simp [says_optLine]
    · rw [if_neg h, if_neg h]
  · rw [List.filter_append, List.filter_cons, about_optLine, List.filter_nil]
    by_cases h : toolName o.1 = n
    · simp [h, says_optLine]
    · simp [h]

theorem valueOf_setOpts (os : List Opt) (h : ∀ o ∈ os, OptionName o.1) (n : Str) : ∀ f,
    valueOf (setOpts f os) n = match lastValue os n with | some v => some v | none => valueOf f n := by
  induction os with
  | nil => intro f; rfl
  | cons o os ih =>
    intro f
    have : setOpts f (o :: os) = setOpts (setOpt f o) os := rfl
    rw [this, ih (fun o ho => h o (by simp [ho])), valueOf_setOpt, (h o (by simp)).1, lastValue_cons]
    cases lastValue os n with
    | some v => rfl
    | none =>
      simp only
      split <;> rfl

theorem configFile_setOpt (f : List CLine) (o : Opt) (hf : ConfigFile f) (hn : OptionName o.1)
    (hv : ∀ c, o.2.getLast? = some c → isSpace c = false) : ConfigFile (setOpt f o) := by
  have hw : (optLine o).WF := by
    unfold optLine
    split
    · trivial
    · exact ⟨by rw [hn.1]; exact hn.2, hv⟩
  unfold setOpt
  split
  · refine ⟨?_, fun n => ?_⟩
    · intro l hl
      obtain ⟨x, hx, rfl⟩ := List.mem_map.1 hl
      split
      · exact hw
      · exact hf.1 x hx
    · rw [filter_map_about f _ n _ (about_optLine n o)]
      split
      · rw [List.length_map]; exact hf.2 n
      · exact hf.2 n
  · next hany =>
    refine ⟨?_, fun n => ?_⟩
    · intro l hl
      rcases List.mem_append.1 hl with hl | hl
      · exact hf.1 l hl
      · rw [List.mem_singleton] at hl; subst hl; exact hw
    · rw [List.filter_append, List.length_append, List.filter_cons, about_optLine, List.filter_nil]
      by_cases h : toolName o.1 = n
      · subst h
        have : f.filter (CLine.about (toolName o.1)) = [] := by
          rw [List.filter_eq_nil_iff]
          intro l hl ha
          exact hany (List.any_eq_true.2 ⟨l, hl, ha⟩)
        simp [this]
      · have := hf.2 n
        simpa [h] using this

theorem assign_none (n : Str) (g : List CLine) : lastValue (assignments (g.map CLine.conf)) n = none → ∀ v, CLine.assign n v ∉ g := by
  induction g with
  | nil => intro _ v h; cases h
  | cons l g ih =>
    intro h v hm
    cases l with
    | assign m x =>
      simp only [List.map_cons, CLine.conf, assignments] at h
      rw [lastValue_cons] at h
      cases hl : lastValue (assignments (g.map CLine.conf)) n with
      | some y => rw [hl] at h; cases h
      | none =>
        rw [hl] at h
        simp only at h
        split at h
        · cases h
        · next hne =>
          rcases List.mem_cons.1 hm with e | e
          · cases e; exact hne rfl
          · exact ih hl v e
    | notSet m => exact ih h v (by simpa using hm)
    | comment m => exact ih h v (by simpa using hm)
    | empty => exact ih h v (by simpa using hm)

/-- the assignments of a file with at most one line per option, and the lines for options not set -/
theorem valueOf_cases (f : List CLine) (hf : ConfigFile f) (n : Str) :
    valueOf f n = match lastValue (assignments (f.map CLine.conf)) n with
      | some v => some v
      | none => if CLine.notSet n ∈ f then some cs!"n" else none := by
  obtain ⟨-, hu⟩ := hf
  have hu := hu n
  unfold valueOf
  have hmem : ∀ (g : List CLine) v, lastValue (assignments (g.map CLine.conf)) n = some v → CLine.assign n v ∈ g := by
    intro g v h
    have := lastValue_mem h
    clear h
    induction g with
    | nil => cases this
    | cons l g ih =>
      cases l with
      | assign m x =>
        simp only [List.map_cons, CLine.conf, assignments, List.mem_cons, Prod.mk.injEq] at this
        rcases this with ⟨rfl, rfl⟩ | this
        · simp
        · simp [ih this]
      | notSet m => simp only [List.map_cons, CLine.conf, assignments] at this; simp [ih this]
      | comment m => simp only [List.map_cons, CLine.conf, assignments] at this; simp [ih this]
      | empty => simp only [List.map_cons, CLine.conf, assignments] at this; simp [ih this]
  have hone : ∀ l ∈ f, l.about n = true → f.filter (CLine.about n) = [l] := by
    intro l hl ha
    have hm := List.mem_filter.2 ⟨hl, ha⟩
    generalize f.filter (CLine.about n) = g at hu hm
    match g, hu, hm with
    | [x], _, hm => rw [List.mem_singleton] at hm; rw [hm]
    | _ :: _ :: _, hu, _ => simp at hu
  cases hl : lastValue (assignments (f.map CLine.conf)) n with
  | some v =>
    rw [hone _ (hmem f v hl) (by simp [CLine.about])]
    rfl
  | none =>
    simp only
    split
    · next hm => rw [hone _ hm (by simp [CLine.about])]; rfl
    · next hm =>
      have : f.filter (CLine.about n) = [] := by
        rw [List.filter_eq_nil_iff]
        intro l hl' ha
        cases l with
        | assign m x =>
          simp only [CLine.about, decide_eq_true_eq] at ha
          subst ha
          exact assign_none _ f hl x hl'
        | notSet m =>
          simp only [CLine.about, decide_eq_true_eq] at ha
          subst ha
          exact hm hl'
        | comment m => simp [CLine.about] at ha
        | empty => simp [CLine.about] at ha
      rw [this]
      rfl

/-- the answers of the script only matter for options that are not assigned in the file -/
theorem checkDeps_congr (toset cfg : Dict Str Str) (d1 d2 : List (List Str) → Str → Str) (work : List (Str × Opt))
    (hw : ∀ p ∈ work, '=' ∉ p.2.1) (h : ∀ p ∈ work, ∀ before, dget p.2.1 cfg = none → d1 before p.2.1 = d2 before p.2.1) :
    ∀ before, checkDeps toset cfg d1 before (work.map fun p => (p.1, Opt.text p.2)) =
      checkDeps toset cfg d2 before (work.map fun p => (p.1, Opt.text p.2)) := by
  induction work with
  | nil => intro _; rfl
  | cons p work ih =>
    intro before
    have hd : depActual toset cfg d1 before p.2.1 = depActual toset cfg d2 before p.2.1 := by
      unfold depActual
      cases hc : dget p.2.1 cfg with
      | some x =>
        simp only
        cases dget p.2.1 toset with
        | none => rfl
        | some y => cases y <;> rfl
      | none => rw [h p (by simp) before hc]
    have h1 : checkDep toset cfg d1 before p.1 (Opt.text p.2) = checkDep toset cfg d2 before p.1 (Opt.text p.2) := by
      unfold checkDep
      rw [splitEq_text p.2 (hw p (by simp))]
      simp only [hd]
    simp only [List.map_cons, checkDeps, h1, ih (fun q hq => hw q (by simp [hq])) (fun q hq => h q (by simp [hq]))]

theorem editConfigCheckDeps_congr (lines : List ConfLine) (hl : ∀ l ∈ lines, l.WF) (d1 d2 : List (List Str) → Str → Str)
    (options : List (Opt × List Opt)) (ho : ∀ p ∈ options, '=' ∉ p.1.1) (hdep : ∀ p ∈ options, ∀ d ∈ p.2, '=' ∉ d.1)
    (h : ∀ p ∈ options, ∀ d ∈ p.2, ∀ before, lastValue (assignments lines) d.1 = none → d1 before d.1 = d2 before d.1) :
    editConfigCheckDeps (lines.map ConfLine.text) d1 (options.map fun p => (Opt.text p.1, p.2.map Opt.text)) =
      editConfigCheckDeps (lines.map ConfLine.text) d2 (options.map fun p => (Opt.text p.1, p.2.map Opt.text)) := by
  have hos : ∀ o ∈ options.map Prod.fst, '=' ∉ o.1 := by
    intro o h; obtain ⟨p, hp, rfl⟩ := List.mem_map.1 h; exact ho p hp
  obtain ⟨toset, t1, -, t2⟩ := tosetOf_spec (options.map Prod.fst) hos
  obtain ⟨cfg, c1, c2⟩ := parseConfig_spec lines hl
  let work : List (Str × Opt) := options.flatMap fun p => p.2.map fun d => (Opt.text p.1, d)
  have hmem : ∀ q ∈ work, ∃ p ∈ options, ∃ dep ∈ p.2, q = (Opt.text p.1, dep) := by
    intro q hq
    simp only [work, List.mem_flatMap, List.mem_map] at hq
    obtain ⟨p, hp, d, hd, rfl⟩ := hq
    exact ⟨p, hp, d, hd, rfl⟩
  have hkeys : (options.map fun p => (Opt.text p.1, p.2.map Opt.text)).map Prod.fst = (options.map Prod.fst).map Opt.text := by
    simp
  have hwork : ((options.map fun p => (Opt.text p.1, p.2.map Opt.text)).flatMap fun od => od.2.map fun d => (od.1, d)) =
      work.map fun p => (p.1, Opt.text p.2) := by
    simp only [work, List.flatMap_map, List.map_flatMap, List.map_map]
    rfl
  unfold editConfigCheckDeps
  rw [hkeys, t1, c1, hwork]
  simp only
  rw [checkDeps_congr toset cfg d1 d2 work]
  · intro q hq
    obtain ⟨p, hp, d, hd, rfl⟩ := hmem q hq
    exact hdep p hp d hd
  · intro q hq before hn
    obtain ⟨p, hp, d, hd, rfl⟩ := hmem q hq
    rw [c2] at hn
    exact h p hp d hd before hn

/-- what happens to the file while commands are run that all succeed -/
theorem setsGroup_values {w : World} {kdir cfg : Path} {file : List Run → List CLine} (hw : ConfigWorld w kdir cfg file)
    (want : Opt → Prop) (hname : ∀ o, '=' ∉ o.1 → want o → OptionName o.1)
    (huniq : ∀ n x y, '=' ∉ n → want (n, x) → want (n, y) → x = y) (R : List Run) (hR : SetsGroup kdir cfg want R) (h : List Run)
    (hst : ∀ pre r post, R = pre ++ r :: post → w.status (h ++ pre) r = some 0) (o : Opt) (ho : '=' ∉ o.1) :
    (want o → valueOf (file (h ++ R)) o.1 = some o.2) ∧
    ((∀ x, ¬ want (o.1, x)) → valueOf (file (h ++ R)) o.1 = valueOf (file h) o.1) := by
  rcases hR with ⟨rfl, hno⟩ | ⟨Q, r, args, os, rfl, hQ, hr, hdec, hos⟩
  · exact ⟨fun hwant => absurd hwant (hno o ho), fun _ => by rw [List.append_nil]⟩
  · have hq : ∀ Q : List Run, (∀ q ∈ Q, ∃ n, ConfigCall kdir cfg [cs!"-s", n] q) → file (h ++ Q) = file h := by
      intro Q
      induction Q using List.reverseRec with
      | nil => intro _; rw [List.append_nil]
      | append_singleton Q q ih =>
        intro hQ
        obtain ⟨n, hn⟩ := hQ q (by simp)
        rw [← List.append_assoc, hw.asks _ q n hn]
        exact ih fun x hx => hQ x (by simp [hx])
    have hf : file (h ++ (Q ++ [r])) = setOpts (file h) os := by
      rw [← List.append_assoc, hw.sets _ r args os hr hdec (hst Q r [] rfl), hq Q hQ]
    rw [hf, valueOf_setOpts os (fun o ho => hname o ((hos o).1 ho).1 ((hos o).1 ho).2)]
    constructor
    · intro hwant
      cases hl : lastValue os o.1 with
      | some v =>
        have := (hos _).1 (lastValue_mem hl)
        rw [huniq o.1 v o.2 ho this.2 hwant]
      | none =>
        exact absurd ((hos o).2 ⟨ho, hwant⟩) (by
          intro hm
          have : ∀ os : List Opt, o ∈ os → lastValue os o.1 ≠ none := by
            intro os
            induction os with
            | nil => intro h; cases h
            | cons p os ih =>
              intro h hn
              rw [lastValue_cons] at hn
              cases hl : lastValue os o.1 with
              | some v => rw [hl] at hn; cases hn
              | none =>
                rw [hl] at hn
                rcases List.mem_cons.1 h with rfl | h
                · simp at hn
                · exact ih h hl
          exact this os hm hl)
    · intro hno
      cases hl : lastValue os o.1 with
      | some v => exact absurd ((hos _).1 (lastValue_mem hl)).2 (hno v)
      | none => rfl

/-- all commands succeed -/
def AllSucceed (w : World) (h R : List Run) : Prop := ∀ pre r post, R = pre ++ r :: post → w.status (h ++ pre) r = some 0

theorem AllSucceed.split {w : World} {h R R' : List Run} (a : AllSucceed w h (R ++ R')) : AllSucceed w h R ∧ AllSucceed w (h ++ R) R' := by
  constructor
  · intro pre r post e
    exact a pre r (post ++ R') (by rw [e]; simp)
  · intro pre r post e
    rw [List.append_assoc]
    exact a (R ++ pre) r post (by rw [e]; simp)

/-- the requested values are in the file -/
def HasValues (f : List CLine) (S : Opt → Prop) : Prop := ∀ o : Opt, '=' ∉ o.1 → S o → valueOf f o.1 = some o.2

end Verif
