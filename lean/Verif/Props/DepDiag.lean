import Verif.Lemmas.DepDiag
import Verif.Props.ConfigTool
/-! # What is told about dependencies of Kconfig options (C119) -/
set_option autoImplicit false

namespace Verif
open Spec

/-- C119: the run with messages is the run of C63 and C93: the same invocations of the script, messages of the same levels at the
same places, and the same outcome, whatever the file, the answers of the script and the options. -/
theorem C119_same (lines : List Str) (answers : List (List Str) → Str → Str) (options : Dict Str (List Str)) :
    (editConfigCheckDepsL lines answers options).1.map KRec.kind = (editConfigCheckDeps lines answers options).1.map KEvent.kind ∧
    (editConfigCheckDepsL lines answers options).2 = (editConfigCheckDeps lines answers options).2 := by
  unfold editConfigCheckDepsL editConfigCheckDeps
  split
  · exact ⟨rfl, rfl⟩
  · cases tosetOf (options.map Prod.fst) with
    | error x => exact ⟨rfl, rfl⟩
    | ok toset =>
      simp only
      cases parseConfig lines with
      | error x => exact ⟨rfl, rfl⟩
      | ok config =>
        simp only
        obtain ⟨h1, h2⟩ := checkDepsL_same toset config answers (options.flatMap fun od => od.2.map fun d => (od.1, d)) []
        generalize checkDepsL toset config answers [] (options.flatMap fun od => od.2.map fun d => (od.1, d)) = x at h1 h2 ⊢
        generalize checkDeps toset config answers [] (options.flatMap fun od => od.2.map fun d => (od.1, d)) = y at h1 h2 ⊢
        obtain ⟨x1, x2⟩ := x
        obtain ⟨y1, y2⟩ := y
        simp only at h1 h2 ⊢
        subst h2
        cases x2 with
        | error e => exact ⟨h1, rfl⟩
        | ok u =>
          obtain ⟨g1, g2⟩ := editConfigL_same (options.map Prod.fst)
          exact ⟨by simp [h1, g1], g2⟩

/-- C119: everything that is seen, in order. For each option and each of its dependencies: the default of the dependency is asked
for if it is neither to be set nor set in the file, then an unmet dependency is told as an error and an unavailable capability
as a warning, with the option, the value wanted, and the value the dependency will have. At the end all options are set. -/
theorem C119_record (options : List (Opt × List Opt)) (conf : List ConfLine) (dflt : Str → Option Str)
    (hne : options ≠ [])
    (ho : ∀ p ∈ options, '=' ∉ p.1.1 ∧ p.1.2 ≠ []) (hdep : ∀ p ∈ options, ∀ d ∈ p.2, '=' ∉ d.1)
    (hconf : ∀ l ∈ conf, l.WF)
    (hd : ∀ n v, dflt n = some v → v ≠ cs!"undef" ∧ strip v = v) :
    ∃ recs args, editConfigCheckDepsL (conf.map ConfLine.text) (fun _ => printDefault dflt)
          (options.map fun p => (Opt.text p.1, p.2.map Opt.text)) = (recs, .ok ()) ∧
      decodeArgs args = some (options.map Prod.fst) ∧
      recs.map seenOf = (options.flatMap fun p => p.2.flatMap fun dep =>
        askedDep (options.map Prod.fst) (assignments conf) dep.1 ++
        (saidDep p.1 dep (effective (options.map Prod.fst) (assignments conf) dflt dep.1)).map .shown) ++ [.run args] := by
  have hos : ∀ o ∈ options.map Prod.fst, '=' ∉ o.1 := by
    intro o h; obtain ⟨p, hp, rfl⟩ := List.mem_map.1 h; exact (ho p hp).1
  have hvs : ∀ o ∈ options.map Prod.fst, o.2 ≠ [] := by
    intro o h; obtain ⟨p, hp, rfl⟩ := List.mem_map.1 h; exact (ho p hp).2
  obtain ⟨toset, t1, -, t2⟩ := tosetOf_spec (options.map Prod.fst) hos
  obtain ⟨cfg, c1, c2⟩ := parseConfig_spec conf hconf
  obtain ⟨args, a1, a2⟩ := editConfig_ok (options.map Prod.fst) hos (by simpa using hne)
  have a1' : editConfigL ((options.map Prod.fst).map Opt.text) = ([.script args], .ok ()) := by
    unfold editConfig at a1
    unfold editConfigL
    split at a1
    · simp at a1
    · rename_i hh
      rw [if_neg hh]
      revert a1
      cases editArgs ((options.map Prod.fst).map Opt.text) with
      | error x => simp
      | ok as => simp
  let work : List (Opt × Opt) := options.flatMap fun p => p.2.map fun d => (p.1, d)
  have hw : ∀ p ∈ work, '=' ∉ p.2.1 := by
    intro q hq
    simp only [work, List.mem_flatMap, List.mem_map] at hq
    obtain ⟨p, hp, d, hd, rfl⟩ := hq
    exact hdep p hp d hd
  obtain ⟨recs, e1, e2⟩ := checkDepsL_spec (options.map Prod.fst) (assignments conf) dflt toset cfg work hw hvs t2 c2 hd []
  have hkeys : (options.map fun p => (Opt.text p.1, p.2.map Opt.text)).map Prod.fst = (options.map Prod.fst).map Opt.text := by
    simp
  have hwork : ((options.map fun p => (Opt.text p.1, p.2.map Opt.text)).flatMap fun od => od.2.map fun d => (od.1, d)) =
      work.map fun p => (Opt.text p.1, Opt.text p.2) := by
    simp only [work, List.flatMap_map, List.map_flatMap, List.map_map]
    rfl
  refine ⟨recs ++ [.script args], args, ?_, a2, ?_⟩
  · unfold editConfigCheckDepsL
    rw [if_neg (by simpa using hne), hkeys, t1, c1, hwork]
    simp only [e1, a1']
  · rw [List.map_append, e2]
    simp only [work, List.flatMap_assoc, List.flatMap_map]
    rfl

/-- C119: on a `.config` file as Kconfig writes it, queried and edited by `scripts/config`: the values told are those in the file
after the edit. -/
theorem C119_edited_file (f : List CLine) (hf : ConfigFile f) (options : List (Opt × List Opt)) (hne : options ≠ [])
    (ho : ∀ p ∈ options, OptionName p.1.1 ∧ p.1.2 ≠ []) (hdep : ∀ p ∈ options, ∀ d ∈ p.2, OptionName d.1)
    (answers : List (List Str) → Str → Str)
    (hans : ∀ before n, (∀ v, CLine.assign (toolName n) v ∉ f) → answers before n = stateText f n) :
    ∃ recs args os, editConfigCheckDepsL (f.map CLine.text) answers (options.map fun p => (Opt.text p.1, p.2.map Opt.text)) =
        (recs, .ok ()) ∧ recs.getLast? = some (.script args) ∧ decodeArgs args = some os ∧
      (recs.map seenOf).filterMap (fun e => match e with | .shown s => some s | .run _ => none) =
        options.flatMap fun p => p.2.flatMap fun dep => saidDep p.1 dep (valueOf (setOpts f os) dep.1) := by
  let dflt : Str → Option Str := fun n => if CLine.notSet n ∈ f then some cs!"n" else none
  have htext : f.map CLine.text = (f.map CLine.conf).map ConfLine.text := by
    rw [List.map_map]
    exact List.map_congr_left fun l _ => (conf_text l).symm
  have hwf : ∀ l ∈ f.map CLine.conf, l.WF := by
    intro l hl
    obtain ⟨x, hx, rfl⟩ := List.mem_map.1 hl
    exact conf_wf x (hf.1 x hx)
  have hcongr : editConfigCheckDepsL ((f.map CLine.conf).map ConfLine.text) answers (options.map fun p => (Opt.text p.1, p.2.map Opt.text)) =
      editConfigCheckDepsL ((f.map CLine.conf).map ConfLine.text) (fun _ => printDefault dflt) (options.map fun p => (Opt.text p.1, p.2.map Opt.text)) := by
    obtain ⟨cfg, c1, c2⟩ := parseConfig_spec (f.map CLine.conf) hwf
    unfold editConfigCheckDepsL
    rw [c1]
    let work : List (Opt × Opt) := options.flatMap fun p => p.2.map fun d => (p.1, d)
    have hwork : ((options.map fun p => (Opt.text p.1, p.2.map Opt.text)).flatMap fun od => od.2.map fun d => (od.1, d)) =
        work.map fun p => (Opt.text p.1, Opt.text p.2) := by
      simp only [work, List.flatMap_map, List.map_flatMap, List.map_map]
      rfl
    have hw : ∀ q ∈ work, OptionName q.2.1 := by
      intro q hq
      simp only [work, List.mem_flatMap, List.mem_map] at hq
      obtain ⟨p, hp, d, hd, rfl⟩ := hq
      exact hdep p hp d hd
    rw [hwork]
    simp only
    have := fun toset => checkDepsL_congr toset cfg answers (fun _ => printDefault dflt) work (fun p hp => (hw p hp).2) (by
      intro p hp before hn
      rw [c2] at hn
      have hnm := hw p hp
      rw [hans before p.2.1 (by rw [hnm.1]; exact assign_none _ f hn)]
      unfold stateText printDefault
      simp only [dflt, hnm.1]
      split <;> rfl) []
    simp only [this]
  obtain ⟨recs, args, h1, h2, h3⟩ := C119_record options (f.map CLine.conf) dflt hne
    (fun p hp => ⟨(ho p hp).1.2, (ho p hp).2⟩) (fun p hp d hd => (hdep p hp d hd).2) hwf (by
      intro n v hv
      simp only [dflt] at hv
      split at hv
      · cases hv; decide
      · cases hv)
  have heff : ∀ n, effective (options.map Prod.fst) (assignments (f.map CLine.conf)) dflt n =
      valueOf (setOpts f (options.map Prod.fst)) n := by
    intro n
    rw [valueOf_setOpts _ (by
      intro o h
      obtain ⟨p, hp, rfl⟩ := List.mem_map.1 h
      exact (ho p hp).1) n f, valueOf_cases f hf n]
    rfl
  simp only [heff] at h3
  refine ⟨recs, args, _, by rw [htext, hcongr, h1], ?_, h2, ?_⟩
  · have := congrArg List.getLast? h3
    rw [List.getLast?_map, List.getLast?_append] at this
    cases hl : recs.getLast? with
    | none => rw [hl] at this; simp at this
    | some r =>
      rw [hl] at this
      cases r with
      | script as => simpa [seenOf] using this
      | log c => simp [seenOf] at this
  · rw [h3, List.filterMap_append]
    simp only [List.filterMap_cons_none, List.filterMap_nil, List.append_nil, List.filterMap_flatMap, List.filterMap_append]
    congr 1
    funext p
    congr 1
    funext dep
    have : ∀ n, (askedDep (options.map Prod.fst) (assignments (f.map CLine.conf)) n).filterMap
        (fun e => match e with | .shown s => some s | .run _ => none) = [] := by
      intro n; unfold askedDep; split <;> rfl
    rw [this, List.nil_append, List.filterMap_map]
    exact List.filterMap_some

theorem cut_at_space (a b x y : Str) (ha : ' ' ∉ a) (hb : ' ' ∉ b) (h : a ++ ' ' :: x = b ++ ' ' :: y) : a = b ∧ x = y := by
  induction a generalizing b with
  | nil =>
    cases b with
    | nil => simpa using h
    | cons c b => simp at h hb; exact absurd h.1 hb.1
  | cons c a ih =>
    cases b with
    | nil => simp at h ha; exact absurd h.1.symm ha.1
    | cons d b =>
      simp only [List.cons_append, List.cons.injEq] at h
      obtain ⟨rfl, rfl⟩ := ih b (by simp at ha; exact ha.2) (by simp at hb; exact hb.2) h.2
      exact ⟨by rw [h.1], rfl⟩

theorem stateWords_inj (n : Str) (u v : Option Str) (h : stateWords n u = stateWords n v) : u = v := by
  cases u <;> cases v <;> simp [stateWords] at h ⊢
  exact h

/-- C119: a message can be read back. Two errors with the same text are about the same option, the same dependency and the same
value; two warnings about the same option and the same state of a dependency (names and wanted values without spaces). -/
theorem C119_readable (opt opt' dep dep' : Opt) (eff eff' : Option Str)
    (h1 : ' ' ∉ Opt.text opt ∧ '=' ∉ opt.1) (h1' : ' ' ∉ Opt.text opt' ∧ '=' ∉ opt'.1)
    (h2 : ' ' ∉ Opt.text dep ∧ '=' ∉ dep.1) (h2' : ' ' ∉ Opt.text dep' ∧ '=' ∉ dep'.1) :
    (errorText opt dep eff = errorText opt' dep' eff' → opt = opt' ∧ dep = dep' ∧ eff = eff') ∧
    (warnText opt dep eff = warnText opt' dep' eff' → opt = opt' ∧ stateWords dep.1 eff = stateWords dep'.1 eff') := by
  have inj : ∀ o o' : Opt, '=' ∉ o.1 → '=' ∉ o'.1 → Opt.text o = Opt.text o' → o = o' := by
    intro o o' g g' h
    have := splitEq_text o g
    rw [h, splitEq_text o' g'] at this
    exact (Except.ok.inj this).symm
  constructor
  · intro h
    unfold errorText at h
    simp only [List.append_assoc] at h
    have h := List.append_cancel_left h
    obtain ⟨e1, h⟩ := cut_at_space (Opt.text opt) (Opt.text opt') _ _ h1.1 h1'.1 h
    have h := List.append_cancel_left (as := cs!"wants CONFIG_") h
    have h : (Opt.text dep ++ cs!",") ++ ' ' :: (cs!"but " ++ (stateWords dep.1 eff ++ cs!"!")) =
        (Opt.text dep' ++ cs!",") ++ ' ' :: (cs!"but " ++ (stateWords dep'.1 eff' ++ cs!"!")) := by
      simpa using h
    obtain ⟨e2, h⟩ := cut_at_space _ _ _ _ (by simp [h2.1]) (by simp [h2'.1]) h
    have e2 := inj _ _ h2.2 h2'.2 (List.append_cancel_right e2)
    have h := List.append_cancel_right (List.append_cancel_left h)
    subst e2
    exact ⟨inj _ _ h1.2 h1'.2 e1, rfl, stateWords_inj _ _ _ h⟩
  · intro h
    unfold warnText at h
    simp only [List.append_assoc] at h
    have h := List.append_cancel_left h
    obtain ⟨e1, h⟩ := cut_at_space (Opt.text opt) (Opt.text opt') _ _ h1.1 h1'.1 h
    have h := List.append_cancel_left (as := cs!"won't be set because ") h
    exact ⟨inj _ _ h1.2 h1'.2 e1, h⟩

/-- an error, a warning, a tolerated `=n` and a dependency set by another option -/
example :
    let options : List (Opt × List Opt) :=
      [((cs!"A", cs!"y"), [(cs!"B", cs!"y"), (cs!"C", cs!"n"), (cs!"HAVE_D", cs!"y")]), ((cs!"E", cs!"m"), [(cs!"A", cs!"y"), (cs!"F", cs!"n")])]
    let conf : List ConfLine := [.comment [] cs!" x\n", .assign [] (cs!"B", cs!"m") cs!"\n", .blank cs!"\n"]
    let dflt : Str → Option Str := fun n => if n = cs!"F" then some cs!"y" else none
    (editConfigCheckDepsL (conf.map ConfLine.text) (fun _ => printDefault dflt)
      (options.map fun p => (Opt.text p.1, p.2.map Opt.text))).1.map seenOf =
    [.shown (.error, some cs!"CONFIG_A=y wants CONFIG_B=y, but CONFIG_B=m!"), .run [cs!"-s", cs!"C"], .run [cs!"-s", cs!"HAVE_D"],
      .shown (.warning, some cs!"CONFIG_A=y won't be set because CONFIG_HAVE_D is not set"),
      .run [cs!"-s", cs!"F"], .shown (.error, some cs!"CONFIG_E=m wants CONFIG_F=n, but CONFIG_F=y!"),
      .run [cs!"-e", cs!"A", cs!"-m", cs!"E"]] := by decide +kernel

end Verif
