import Verif.Lemmas.ConfigTool
import Verif.Props.Kconfig
import Verif.Props.Build
/-! # The `.config` file after configuring (C93) -/
set_option autoImplicit false

namespace Verif
open Spec

/-- C93: on a `.config` file as Kconfig writes it, queried and edited by `scripts/config`, every requested option has the (last)
requested value afterwards, every other option its old one; errors are logged exactly for the dependencies that are unmet in the
file after the edit, and warnings exactly for the capabilities unavailable there. -/
theorem C93_edited_file (f : List CLine) (hf : ConfigFile f) (options : List (Opt × List Opt)) (hne : options ≠ [])
    (ho : ∀ p ∈ options, OptionName p.1.1 ∧ p.1.2 ≠ []) (hdep : ∀ p ∈ options, ∀ d ∈ p.2, OptionName d.1)
    (answers : List (List Str) → Str → Str)
    (hans : ∀ before n, (∀ v, CLine.assign (toolName n) v ∉ f) → answers before n = stateText f n) :
    ∃ evs args os, editConfigCheckDeps (f.map CLine.text) answers (options.map fun p => (Opt.text p.1, p.2.map Opt.text)) =
        (evs ++ [.script args], .ok ()) ∧ decodeArgs args = some os ∧
      (∀ as, KEvent.script as ∈ evs → ∃ n, as = [cs!"-s", n]) ∧
      (∀ n, valueOf (setOpts f os) n = match lastValue (options.map Prod.fst) n with | some v => some v | none => valueOf f n) ∧
      (∀ o d, KEvent.error o d ∈ evs ↔ ∃ p ∈ options, ∃ dep ∈ p.2, o = Opt.text p.1 ∧ d = Opt.text dep ∧
        Unmet dep (valueOf (setOpts f os) dep.1)) ∧
      (∀ o d, KEvent.warn o d ∈ evs ↔ ∃ p ∈ options, ∃ dep ∈ p.2, o = Opt.text p.1 ∧ d = Opt.text dep ∧
        Unavailable dep (valueOf (setOpts f os) dep.1)) := by
  let dflt : Str → Option Str := fun n => if CLine.notSet n ∈ f then some cs!"n" else none
  have htext : f.map CLine.text = (f.map CLine.conf).map ConfLine.text := by
    rw [List.map_map]
    exact List.map_congr_left fun l _ => (conf_text l).symm
  have hwf : ∀ l ∈ f.map CLine.conf, l.WF := by
    intro l hl
    obtain ⟨x, hx, rfl⟩ := List.mem_map.1 hl
    exact conf_wf x (hf.1 x hx)
  have hcongr := editConfigCheckDeps_congr (f.map CLine.conf) hwf answers (fun _ => printDefault dflt) options
    (fun p hp => (ho p hp).1.2) (fun p hp d hd => (hdep p hp d hd).2) (by
      intro p hp d hd before hn
      have hnm := hdep p hp d hd
      rw [hans before d.1 (by rw [hnm.1]; exact assign_none _ f hn)]
      unfold stateText printDefault
      simp only [dflt, hnm.1]
      split <;> rfl)
  obtain ⟨evs, args, h1, h2, h3, h4, h5⟩ := C63_check_deps options (f.map CLine.conf) dflt hne
    (fun p hp => ⟨(ho p hp).1.2, (ho p hp).2⟩) (fun p hp d hd => (hdep p hp d hd).2) hwf (by
      intro n v hv
      simp only [dflt] at hv
      split at hv
      · cases hv; decide
      · cases hv)
  have hval : ∀ n, valueOf (setOpts f (options.map Prod.fst)) n =
      match lastValue (options.map Prod.fst) n with | some v => some v | none => valueOf f n := by
    intro n
    refine valueOf_setOpts _ ?_ n f
    intro o h
    obtain ⟨p, hp, rfl⟩ := List.mem_map.1 h
    exact (ho p hp).1
  have heff : ∀ n, effective (options.map Prod.fst) (assignments (f.map CLine.conf)) dflt n =
      valueOf (setOpts f (options.map Prod.fst)) n := by
    intro n
    rw [hval n, valueOf_cases f hf n]
    rfl
  simp only [heff] at h3 h4
  refine ⟨evs, args, _, by rw [htext, hcongr, h1], h2, ?_, hval, h3, h4⟩
  intro as has
  obtain ⟨p, hp, d, hd, e⟩ := h5 as has
  exact ⟨_, e⟩

/-- a file with an option that is set, one that is not, and one that is not mentioned -/
example :
    let f : List CLine := [.comment cs!" Linux/x86", .assign cs!"SMP" cs!"y", .notSet cs!"NUMA", .empty]
    let options : List (Opt × List Opt) :=
      [((cs!"NUMA", cs!"y"), [(cs!"SMP", cs!"y"), (cs!"PCI", cs!"y")]), ((cs!"SMP", cs!"n"), [])]
    ConfigFile f ∧ (∀ p ∈ options, OptionName p.1.1 ∧ p.1.2 ≠ []) ∧
    (∀ p ∈ options, ∀ d ∈ p.2, OptionName d.1) ∧
    editConfigCheckDeps (f.map CLine.text) (fun _ n => stateText f n) (options.map fun p => (Opt.text p.1, p.2.map Opt.text)) =
      ([.error cs!"NUMA=y" cs!"SMP=y", .script [cs!"-s", cs!"PCI"], .error cs!"NUMA=y" cs!"PCI=y",
        .script [cs!"-e", cs!"NUMA", cs!"-d", cs!"SMP"]], .ok ()) ∧
    setOpts f (options.map Prod.fst) = [.comment cs!" Linux/x86", .notSet cs!"SMP", .assign cs!"NUMA" cs!"y", .empty] := by
  refine ⟨⟨?_, ?_⟩, by decide, by decide, by decide +kernel, by decide +kernel⟩
  · intro l hl
    simp only [List.mem_cons, List.not_mem_nil, or_false] at hl
    rcases hl with rfl | rfl | rfl | rfl <;> simp [CLine.WF]
    decide
  · intro n
    by_cases h1 : cs!"SMP" = n
    · subst h1; decide
    · by_cases h2 : cs!"NUMA" = n
      · subst h2; decide
      · simp [List.filter_cons, CLine.about, h1, h2]

/-! ## The whole configuration -/

/-- the names and values of the tables need no quoting -/
theorem allEntries_plain (k : Kind) (abi : Str) (bits32 : Bool) :
    (allEntries k abi bits32).all (fun e => decide (OptionName e.2.2.1) && (e.2.2.2 == cs!"y" || e.2.2.2 == cs!"n")) = true := by
  unfold allEntries variantTable
  cases k <;> unfold ctorAdds <;> simp only
  · split <;> decide +kernel
  · decide +kernel
  · split <;> decide +kernel
  · split <;> decide +kernel
  · split <;> decide +kernel
  · split <;> decide +kernel

/-- C93: the names of all options that are set are as `scripts/config` writes them, and the values are `y` or `n`. -/
theorem C93_shipped_options (k : Kind) (abi : Str) (bits32 : Bool) (v : Ver) (o : Opt) (ho : '=' ∉ o.1)
    (h : SetWhileConfiguring k abi bits32 v o) : OptionName o.1 ∧ (o.2 = cs!"y" ∨ o.2 = cs!"n") := by
  obtain ⟨s, e, hm, -, -⟩ := allEntries_of h ho
  have := List.all_eq_true.1 (allEntries_plain k abi bits32) _ hm
  simpa using this

/-- C93: after a successful configuration, in a world where `scripts/config` edits the `.config` file and synchronising keeps
the requested values, every option requested for that variant and version has its requested value. -/
theorem C93_configure (w : World) (b : Builder) (s : BState) (k : Kind) (v0 : Ver) (abi : Str) (bits32 : Bool)
    (h : createArch initialStore k v0 abi bits32 = .ok (b.arch, b.store))
    (file : List Run → List CLine) (hw : ConfigWorld w b.kdir b.configFile file) (hok : (configure w b s).1 = .ok ()) :
    ∃ R v, (configure w b s).2.hist = s.hist ++ R ∧ VersionPrinted w.output s.hist v R ∧
      ((∀ h r target o, target = cs!"olddefconfig" ∨ target = cs!"oldconfig" → MakeCall b.kdir b.arch.kind.name target r →
          SetWhileConfiguring k abi bits32 v o → valueOf (file h) o.1 = some o.2 → valueOf (file (h ++ [r])) o.1 = some o.2) →
        ∀ o, '=' ∉ o.1 → SetWhileConfiguring k abi bits32 v o → valueOf (file (configure w b s).2.hist) o.1 = some o.2) := by
  obtain ⟨R, v, e, hv, hall, -⟩ := C69_order w b s k v0 abi bits32 h
  obtain ⟨R', e', hst⟩ := C69_stops w b s
  obtain rfl : R = R' := List.append_cancel_left (e.symm.trans e')
  have hst : AllSucceed w s.hist R := fun pre r post hR => hst pre r post hR (.inr hok)
  refine ⟨R, v, e, hv, ?_⟩
  intro hkeep
  rw [e]
  replace hall := hall hok
  let All : Opt → Prop := SetWhileConfiguring k abi bits32 v
  have hgroup : ∀ (want S : Opt → Prop) (hh R : List Run), (∀ o, want o → All o) → (∀ o, S o → All o) →
      SetsGroup b.kdir b.configFile want R → AllSucceed w hh R → HasValues (file hh) S →
      HasValues (file (hh ++ R)) (fun o => S o ∨ want o) := by
    intro want S hh R h1 h2 hR hs hS o ho hor
    obtain ⟨g1, g2⟩ := setsGroup_values hw want (fun o ho hwa => (C93_shipped_options k abi bits32 v o ho (h1 o hwa)).1)
      (fun n x y hn hx hy => C78_consistent k abi bits32 v n x y hn (h1 _ hx) (h1 _ hy)) R hR hh hs o ho
    by_cases hx : ∃ x, want (o.1, x)
    · obtain ⟨x, hx⟩ := hx
      have ha : All o := by rcases hor with a | a <;> [exact h2 o a; exact h1 o a]
      have : x = o.2 := C78_consistent k abi bits32 v o.1 x o.2 ho (h1 _ hx) ha
      subst this
      exact g1 hx
    · have hno : ∀ x, ¬ want (o.1, x) := fun x hxx => hx ⟨x, hxx⟩
      rw [g2 hno]
      rcases hor with a | a
      · exact hS o ho a
      · exact absurd a (hno o.2)
  have hsync : ∀ (S : Opt → Prop) (hh R : List Run), (∀ o, S o → All o) → SyncCall b.kdir b.arch.kind.name v R →
      HasValues (file hh) S → HasValues (file (hh ++ R)) S := by
    intro S hh R h2 hR hS o ho hor
    obtain ⟨r, rfl, hr⟩ := hR
    refine hkeep hh r _ o ?_ hr (h2 o hor) (hS o ho hor)
    split
    · exact .inl rfl
    · exact .inr rfl
  unfold configPhases at hall
  rcases hall with ⟨_, _, R1, R, hp1, hall⟩
  rcases hall with ⟨_, _, R2, R, hp2, hall⟩
  rcases hall with ⟨_, _, R3, R, hp3, hall⟩
  rcases hall with ⟨_, _, R4, R, hp4, hall⟩
  rcases hall with ⟨_, _, R5, R, hp5, hall⟩
  rcases hall with ⟨_, _, R6, R, hp6, hall⟩
  rcases hall with ⟨_, _, R7, R, hp7, hall⟩
  rcases hall with ⟨_, _, R8, R, hp8, hall⟩
  rcases hall with ⟨_, _, R9, R, hp9, hall⟩
  rcases hall with ⟨_, _, R10, R, hp10, hall⟩
  cases hall
  rw [List.append_nil] at hst ⊢
  obtain ⟨-, hst⟩ := hst.split
  obtain ⟨-, hst⟩ := hst.split
  obtain ⟨t3, hst⟩ := hst.split
  obtain ⟨-, hst⟩ := hst.split
  obtain ⟨t5, hst⟩ := hst.split
  obtain ⟨-, hst⟩ := hst.split
  obtain ⟨t7, hst⟩ := hst.split
  obtain ⟨-, hst⟩ := hst.split
  obtain ⟨t9, -⟩ := hst.split
  have s0 : HasValues (file (s.hist ++ R1 ++ R2)) (fun _ => False) := fun _ _ h => h.elim
  have s1 := hgroup _ _ _ _ (fun o h => .inl h) (fun _ h => h.elim) hp3 t3 s0
  have a1 : ∀ o, False ∨ InListTable kconfigDebuggingTable v o → All o := fun o h => .inl (h.resolve_left id)
  have s2 := hsync _ _ _ a1 hp4 s1
  have s3 := hgroup _ _ _ _ (fun o h => .inr (.inl h)) a1 hp5 t5 s2
  have a2 : ∀ o, (False ∨ InListTable kconfigDebuggingTable v o) ∨ InListTable kconfigCompatibilityTable v o → All o :=
    fun o h => h.elim (a1 o) fun h => .inr (.inl h)
  have s4 := hsync _ _ _ a2 hp6 s3
  have s5 := hgroup _ _ _ _ (fun o h => .inr (.inr (.inl h))) a2 hp7 t7 s4
  have a3 : ∀ o, ((False ∨ InListTable kconfigDebuggingTable v o) ∨ InListTable kconfigCompatibilityTable v o) ∨
      InDictTable kconfigMoreSyscallsTable v o → All o :=
    fun o h => h.elim (a2 o) fun h => .inr (.inr (.inl h))
  have s6 := hsync _ _ _ a3 hp8 s5
  have s7 := hgroup _ _ _ _ (fun o h => .inr (.inr (.inr h))) a3 hp9 t9 s6
  have a4 : ∀ o, (((False ∨ InListTable kconfigDebuggingTable v o) ∨ InListTable kconfigCompatibilityTable v o) ∨
      InDictTable kconfigMoreSyscallsTable v o) ∨ InDictTable (variantTable k abi bits32) v o → All o :=
    fun o h => h.elim (a3 o) fun h => .inr (.inr (.inr h))
  have s8 := hsync _ _ _ a4 hp10 s7
  intro o ho hall
  have := s8 o ho (by
    rcases hall with g | g | g | g
    · exact .inl (.inl (.inl (.inr g)))
    · exact .inl (.inl (.inr g))
    · exact .inl (.inr g)
    · exact .inr g)
  simpa [List.append_assoc] using this

/-- C93: what is logged while options with dependencies are set, in a world where `scripts/config` edits and prints the `.config`
file: if this succeeds, every requested option then has the (last) requested value in the file, every other option its old
one, and errors and warnings are those about dependencies unmet, or capabilities unavailable, in the file after that. -/
theorem C93_logged (w : World) (b : Builder) (s : BState) (file : List Run → List CLine) (hw : ConfigWorld w b.kdir b.configFile file)
    (hread : w.readLines s.hist (b.configFile.absolute w.cwd) = some ((file s.hist).map CLine.text))
    (hask : ∀ h r n, ConfigCall b.kdir b.configFile [cs!"-s", n] r → (∀ v, CLine.assign (toolName n) v ∉ file h) →
      w.output h r = stateText (file h) n)
    (hf : ConfigFile (file s.hist)) (options : List (Opt × List Opt)) (hne : options ≠ [])
    (ho : ∀ p ∈ options, OptionName p.1.1 ∧ p.1.2 ≠ []) (hdep : ∀ p ∈ options, ∀ d ∈ p.2, OptionName d.1)
    (hok : (applyOptionsCheck w b (options.map fun p => (Opt.text p.1, p.2.map Opt.text)) s).1 = .ok ()) :
    let after := file (applyOptionsCheck w b (options.map fun p => (Opt.text p.1, p.2.map Opt.text)) s).2.hist
    ∃ evs, checkEvents w b (options.map fun p => (Opt.text p.1, p.2.map Opt.text)) s = some (evs, .ok ()) ∧
      (∀ n, valueOf after n = match lastValue (options.map Prod.fst) n with | some v => some v | none => valueOf (file s.hist) n) ∧
      (∀ o d, KEvent.error o d ∈ evs ↔ ∃ p ∈ options, ∃ dep ∈ p.2, o = Opt.text p.1 ∧ d = Opt.text dep ∧ Unmet dep (valueOf after dep.1)) ∧
      (∀ o d, KEvent.warn o d ∈ evs ↔ ∃ p ∈ options, ∃ dep ∈ p.2, o = Opt.text p.1 ∧ d = Opt.text dep ∧
        Unavailable dep (valueOf after dep.1)) := by
  intro after
  have hqs : ∀ Q : List (List Str), (∀ as ∈ Q, ∃ n, as = [cs!"-s", n]) → ∀ h, file (h ++ Q.map (configRun b s)) = file h := by
    intro Q
    induction Q with
    | nil => intro _ h; simp
    | cons q Q ih =>
      intro hQ h
      obtain ⟨n, rfl⟩ := hQ q (List.mem_cons_self ..)
      have := ih (fun as has => hQ as (List.mem_cons_of_mem _ has)) (h ++ [configRun b s [cs!"-s", n]])
      simp only [List.map_cons, List.append_assoc, List.singleton_append] at this ⊢
      rw [this]
      exact hw.asks h _ n ⟨rfl, rfl⟩
  let answers := fun (before : List (List Str)) (n : Str) => w.output (s.hist ++ before.map (configRun b s)) (configRun b s [cs!"-s", n])
  let answers' := fun (before : List (List Str)) (n : Str) =>
    if before.all (fun as => decide (as.take 1 = [cs!"-s"] ∧ as.length = 2)) then answers before n else stateText (file s.hist) n
  have hall : ∀ before : List (List Str), (before.all (fun as => decide (as.take 1 = [cs!"-s"] ∧ as.length = 2))) = true ↔
      ∀ as ∈ before, ∃ n, as = [cs!"-s", n] := by
    intro before
    simp only [List.all_eq_true, decide_eq_true_eq]
    refine forall_congr' fun as => forall_congr' fun _ => ?_
    constructor
    · rintro ⟨h1, h2⟩
      match as, h1, h2 with
      | [a, n], h1, _ => exact ⟨n, by simpa using h1⟩
    · rintro ⟨n, rfl⟩; exact ⟨rfl, rfl⟩
  have hev : checkEvents w b (options.map fun p => (Opt.text p.1, p.2.map Opt.text)) s =
      some (editConfigCheckDeps ((file s.hist).map CLine.text) answers' (options.map fun p => (Opt.text p.1, p.2.map Opt.text))) := by
    unfold checkEvents
    rw [hread]
    refine congrArg some ?_
    apply editConfigCheckDeps_before
    intro before n hb
    simp only [answers']
    rw [if_pos ((hall before).2 hb)]
  obtain ⟨evs, args, os, h1, h2, h3, h4, h5, h6⟩ := C93_edited_file (file s.hist) hf options hne ho hdep answers' (by
    intro before n hn
    simp only [answers']
    split
    · rename_i hb
      have hfile := hqs before ((hall before).1 hb) s.hist
      have := hask (s.hist ++ before.map (configRun b s)) (configRun b s [cs!"-s", n]) n ⟨rfl, rfl⟩ (by rw [hfile]; exact hn)
      rw [hfile] at this
      exact this
    · rfl)
  have hafter : after = setOpts (file s.hist) os := by
    have hrun : applyOptionsCheck w b (options.map fun p => (Opt.text p.1, p.2.map Opt.text)) s =
        performAll w b (evs ++ [.script args], .ok ()) s := by
      unfold applyOptionsCheck
      rw [if_neg (by simpa using hne)]
      simp only [bm_bind, bm_get]
      rw [hev, h1]
    obtain ⟨R, hR, hst⟩ := careful_performAll w b (evs ++ [.script args], .ok ()) s
    obtain ⟨R', k, hR', -, -, hall'⟩ := performK_spec w b (evs ++ [.script args]) s
    rw [hrun] at hok
    have hk : (performK w b (evs ++ [.script args]) s).1 = .ok () ∧
        (performAll w b (evs ++ [.script args], .ok ()) s).2.hist = (performK w b (evs ++ [.script args]) s).2.hist := by
      unfold performAll at hok ⊢
      rw [bm_bind] at hok ⊢
      cases hp : performK w b (evs ++ [.script args]) s with
      | mk r s' =>
        rw [hp] at hok
        cases r with
        | error x => cases hok
        | ok u => exact ⟨rfl, rfl⟩
    have hRR : R = R' := by
      have := hR.symm.trans (hk.2.trans hR')
      exact List.append_cancel_left this
    have hR2 : R = (scriptsOf evs).map (configRun b s) ++ [configRun b s args] := by
      rw [hRR, hall' hk.1, scriptsOf_append, List.map_append]
      rfl
    have hz := hst ((scriptsOf evs).map (configRun b s)) (configRun b s args) [] (by rw [hR2]) (.inr ⟨(), hok⟩)
    show file (applyOptionsCheck w b _ s).2.hist = _
    rw [hrun, hR, hR2, ← List.append_assoc, hw.sets _ _ args os ⟨rfl, rfl⟩ h2 hz, hqs]
    intro as has
    exact h3 as (mem_scriptsOf.1 has)
  refine ⟨evs ++ [.script args], by rw [hev, h1], ?_, ?_, ?_⟩
  · intro n; rw [hafter]; exact h4 n
  · intro o d
    rw [hafter, ← h5 o d]
    simp
  · intro o d
    rw [hafter, ← h6 o d]
    simp

/-- the file after a history, if only `scripts/config` changes it -/
def toolFile (kdir cfg : Path) (h : List Run) : List CLine :=
  h.foldl (fun f r =>
    if r.cwd = some kdir ∧ r.argv.take 3 = [cs!"./scripts/config", cs!"--file", cfg.str] then
      match decodeArgs (r.argv.drop 3) with
      | some os => setOpts f os
      | none => f
    else f) []

theorem toolFile_world (w : World) (kdir cfg : Path) : ConfigWorld w kdir cfg (toolFile kdir cfg) := by
  constructor
  · intro h r args os hr hd _
    unfold toolFile
    rw [List.foldl_append, List.foldl_cons, List.foldl_nil, if_pos ⟨hr.1, by rw [hr.2]; rfl⟩]
    rw [show r.argv.drop 3 = args by rw [hr.2]; rfl, hd]
  · intro h r n hr
    unfold toolFile
    rw [List.foldl_append, List.foldl_cons, List.foldl_nil, if_pos ⟨hr.1, by rw [hr.2]; rfl⟩]
    rw [show r.argv.drop 3 = [cs!"-s", n] by rw [hr.2]; rfl]
    rfl

/-- a configuration that succeeds, in such a world -/
example : ∃ b, x64Builder = .ok b ∧ createArch initialStore .x86 [5, 10] cs!"x64" false = .ok (b.arch, b.store) ∧
    (configure (okWorld cs!"5.10.4\n") b {}).1 = .ok () ∧
    ConfigWorld (okWorld cs!"5.10.4\n") b.kdir b.configFile (toolFile b.kdir b.configFile) ∧
    valueOf (toolFile b.kdir b.configFile (configure (okWorld cs!"5.10.4\n") b {}).2.hist) cs!"IA32_EMULATION" = some cs!"y" :=
  ⟨_, rfl, rfl, by decide +kernel, toolFile_world _ _ _, by decide +kernel⟩

/-- a world with such a file, printed by `scripts/config -s` and readable -/
def toolWorld (b : Builder) : World :=
  { okWorld cs!"5.10.4\n" with
    output := fun h r => if r.argv = [cs!"make", cs!"kernelversion"] then cs!"5.10.4\n"
      else stateText (toolFile b.kdir b.configFile h) (r.argv[4]?.getD [])
    readLines := fun h _ => some ((toolFile b.kdir b.configFile h).map CLine.text) }

/-- the hypotheses of `C93_logged` hold: `A=y` is set, its dependencies `B=y` and `C=n` are looked for, and the first is an error -/
example : ∃ b, x64Builder = .ok b ∧ ConfigWorld (toolWorld b) b.kdir b.configFile (toolFile b.kdir b.configFile) ∧
    (toolWorld b).readLines [] (b.configFile.absolute (toolWorld b).cwd) = some ((toolFile b.kdir b.configFile []).map CLine.text) ∧
    (∀ h r n, ConfigCall b.kdir b.configFile [cs!"-s", n] r → (∀ v, CLine.assign (toolName n) v ∉ toolFile b.kdir b.configFile h) →
      (toolWorld b).output h r = stateText (toolFile b.kdir b.configFile h) n) ∧
    ConfigFile (toolFile b.kdir b.configFile []) ∧
    (applyOptionsCheck (toolWorld b) b [(cs!"A=y", [cs!"B=y", cs!"C=n"])] {}).1 = .ok () ∧
    checkEvents (toolWorld b) b [(cs!"A=y", [cs!"B=y", cs!"C=n"])] {} =
      some ([.script [cs!"-s", cs!"B"], .error cs!"A=y" cs!"B=y", .script [cs!"-s", cs!"C"], .script [cs!"-e", cs!"A"]], .ok ()) := by
  refine ⟨_, rfl, toolFile_world _ _ _, rfl, ?_, ⟨by simp [toolFile], by simp [toolFile]⟩, by decide +kernel, by decide +kernel⟩
  intro h r n hr _
  simp only [toolWorld]
  rw [if_neg (by rw [hr.2]; simp), hr.2]
  rfl

end Verif
