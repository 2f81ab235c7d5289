import Verif.Lemmas.Kconfig
/-! # Properties of the Kconfig tables and of kconfig.py (C05, C61-C65, C78) -/
set_option autoImplicit false

namespace Verif
open Spec

/-! ## C05 -/

/-- C05: the option table and the two dependency tables are unambiguous at every version. -/
theorem C05_tables_unambiguous : Unambiguous kconfigMoreSyscallsTable ∧ Unambiguous kconfigSyscallDepsTable ∧
    ∀ k : Kind, Unambiguous k.syscallDepsTable := by
  refine ⟨unambiguous_of_tableOk (by decide +kernel), unambiguous_of_tableOk (by decide +kernel), fun k => ?_⟩
  cases k <;> exact unambiguous_of_tableOk (by decide +kernel)

/-- C05: so is the option table of every architecture object, its constructor's additions included. -/
theorem C05_arch_tables_unambiguous (k : Kind) (abi : Str) (bits32 : Bool) :
    Unambiguous (k.kconfigTable ++ ctorAdds k abi bits32) := by
  cases k with
  | arm =>
    by_cases h : abi = cs!"eabi"
    · simp only [ctorAdds, h, if_true]; exact unambiguous_of_tableOk (by decide +kernel)
    · simp only [ctorAdds, h, if_false]; exact unambiguous_of_tableOk (by decide +kernel)
  | arm64 => simp only [ctorAdds]; exact unambiguous_of_tableOk (by decide +kernel)
  | mips => cases bits32 <;> simp only [ctorAdds, if_true, if_false, Bool.false_eq_true] <;> exact unambiguous_of_tableOk (by decide +kernel)
  | powerpc => cases bits32 <;> simp only [ctorAdds, if_true, if_false, Bool.false_eq_true] <;> exact unambiguous_of_tableOk (by decide +kernel)
  | riscv => cases bits32 <;> simp only [ctorAdds, if_true, if_false, Bool.false_eq_true] <;> exact unambiguous_of_tableOk (by decide +kernel)
  | x86 => cases bits32 <;> simp only [ctorAdds, if_true, if_false, Bool.false_eq_true] <;> exact unambiguous_of_tableOk (by decide +kernel)

/-- C05: on an unambiguous table the answer at a version does not depend on the order of the entries. -/
theorem C05_order_independent {κ β : Type} [DecidableEq κ] (l1 l2 : List (VEntry κ β)) (hu : Unambiguous l1)
    (hp : l1.Perm l2) (v : Ver) (k : κ) :
    dget k ((VDict.init l1).getItem v).1 = dget k ((VDict.init l2).getItem v).1 :=
  lookup_congr hu (fun _ => hp.mem_iff) v k

/-- C05: and it is the value of whichever entry covers the version. -/
theorem C05_answer_is_coverage {κ β : Type} [DecidableEq κ] (l : List (VEntry κ β)) (hu : Unambiguous l)
    (v : Ver) (k : κ) (x : β) : dget k ((VDict.init l).getItem v).1 = some x ↔ Covers l v k x :=
  lookup_covers l v k x hu

/-- hypotheses are met, by a table with two entries for one key; and the property is not vacuous -/
example : Unambiguous [([1], [2], 0, 5), ([2], [4], 0, 6), ([3], [9], 0, 6)] ∧
    ¬ Unambiguous [([1], [3], 0, 5), ([2], [4], 0, 6)] := by
  refine ⟨unambiguous_of_tableOk (by decide), fun h => ?_⟩
  exact absurd (h [2, 1] 0 [1] [3] [2] [4] 5 6 (by simp) (by simp) (by decide) (by decide) (by decide) (by decide))
    (by decide)

example : Covers kconfigMoreSyscallsTable [4, 1, 7, 0, 3] cs!"BSD_PROCESS_ACCT=y" [cs!"MULTIUSER=y"] :=
  ⟨[4, 1], versionInf, by decide +kernel, by decide, by decide⟩

/-! ## C61 -/

/-- C61: for all tables, an empty value counts as no value: the arch value if there is a non-empty one, else the global value if
there is a non-empty one, else nothing. -/
theorem C61_any_tables (archTab globalTab : Dict Str Str) (name x : Str) :
    kconfigSyscallDeps archTab globalTab name = some x ↔
      ∃ v, v ≠ [] ∧ x = cs!"CONFIG_" ++ v ∧
        (dget name archTab = some v ∨ ((∀ u, dget name archTab = some u → u = []) ∧ dget name globalTab = some v)) := by
  unfold kconfigSyscallDeps
  rcases dget name archTab with _ | _ | ⟨c, cs⟩ <;> rcases dget name globalTab with _ | _ | ⟨d, ds⟩ <;>
    simp [eq_comm]
  constructor
  · intro e; exact ⟨_, by simp, e, .inr rfl⟩
  · rintro ⟨v, hv, e, rfl | rfl⟩
    · exact absurd rfl hv
    · exact e

/-- an empty arch value gives way to the global one -/
example : kconfigSyscallDeps [(cs!"acct", [])] [(cs!"acct", cs!"BSD_PROCESS_ACCT=y")] cs!"acct" = some cs!"CONFIG_BSD_PROCESS_ACCT=y" := by
  decide

/-- C61: arch value if there is one, else global value, else nothing; for all tables without empty values. -/
theorem C61_syscall_deps (archTab globalTab : Dict Str Str) (name : Str)
    (ha : ∀ k, (k, []) ∉ archTab) (hg : ∀ k, (k, []) ∉ globalTab) :
    kconfigSyscallDeps archTab globalTab name =
      match dget name archTab with
      | some x => some (cs!"CONFIG_" ++ x)
      | none => (dget name globalTab).map (cs!"CONFIG_" ++ ·) := by
  unfold kconfigSyscallDeps
  cases h : dget name archTab with
  | some x =>
    cases x with
    | nil => exact absurd (dget_mem h) (ha _)
    | cons c cs => rfl
  | none =>
    simp only
    cases h2 : dget name globalTab with
    | none => rfl
    | some x =>
      cases x with
      | nil => exact absurd (dget_mem h2) (hg _)
      | cons c cs => rfl

/-- C61 on the shipped tables, for every architecture, version and name: the answer is the value of an arch
entry covering the version, or, when no arch entry covers it, of a global entry covering it. -/
theorem C61_shipped (k : Kind) (v : Ver) (name c : Str) :
    shippedSyscallDeps k v name = some c ↔
      ∃ x, c = cs!"CONFIG_" ++ x ∧ (Covers k.syscallDepsTable v name x ∨
        ((∀ y, ¬ Covers k.syscallDepsTable v name y) ∧ Covers kconfigSyscallDepsTable v name x)) := by
  have hu1 := C05_tables_unambiguous.2.2 k
  have hu2 := C05_tables_unambiguous.2.1
  have hne1 : ∀ a ∈ k.syscallDepsTable, a.2.2.2 ≠ [] := by cases k <;> decide +kernel
  have hne2 : ∀ a ∈ kconfigSyscallDepsTable, a.2.2.2 ≠ [] := by decide +kernel
  unfold shippedSyscallDeps kconfigSyscallDeps
  have hc1 := fun x => lookup_covers k.syscallDepsTable v name x hu1
  have hc2 := fun x => lookup_covers kconfigSyscallDepsTable v name x hu2
  generalize dget name ((VDict.init k.syscallDepsTable).getItem v).1 = o1 at hc1 ⊢
  generalize dget name ((VDict.init kconfigSyscallDepsTable).getItem v).1 = o2 at hc2 ⊢
  have hn1 : ¬ Covers k.syscallDepsTable v name [] := by
    rintro ⟨s, e, hm, -⟩; exact hne1 _ hm rfl
  have hn2 : ¬ Covers kconfigSyscallDepsTable v name [] := by
    rintro ⟨s, e, hm, -⟩; exact hne2 _ hm rfl
  rcases o1 with _ | _ | ⟨a, as⟩
  · have h1 : ∀ y, ¬ Covers k.syscallDepsTable v name y := fun y hy => by simpa using (hc1 y).2 hy
    rcases o2 with _ | _ | ⟨b, bs⟩
    · have h2 : ∀ y, ¬ Covers kconfigSyscallDepsTable v name y := fun y hy => by simpa using (hc2 y).2 hy
      simp [h1, h2]
    · exact absurd ((hc2 []).1 rfl) hn2
    · simp only [Option.some.injEq]
      constructor
      · rintro rfl; exact ⟨_, rfl, Or.inr ⟨h1, (hc2 _).1 rfl⟩⟩
      · rintro ⟨x, rfl, hx | ⟨-, hx⟩⟩
        · exact absurd hx (h1 x)
        · have := (hc2 x).2 hx; cases this; rfl
  · exact absurd ((hc1 []).1 rfl) hn1
  · simp only [Option.some.injEq]
    constructor
    · rintro rfl; exact ⟨_, rfl, Or.inl ((hc1 _).1 rfl)⟩
    · rintro ⟨x, rfl, hx | ⟨hx, -⟩⟩
      · have := (hc1 x).2 hx; cases this; rfl
      · exact absurd ((hc1 _).1 rfl) (hx _)

/-- both cases occur, at one version -/
example : shippedSyscallDeps .x86 [5, 10] cs!"pkey_alloc" = some cs!"CONFIG_X86_INTEL_MEMORY_PROTECTION_KEYS" ∧
    shippedSyscallDeps .arm [5, 10] cs!"acct" = some cs!"CONFIG_BSD_PROCESS_ACCT" ∧
    shippedSyscallDeps .arm [5, 10] cs!"read" = none := by decide +kernel

/-! ## C62 -/

/-- C62: one invocation of the script whose decoded arguments are the options, in order. -/
theorem C62_edit_config (os : List Opt) (h : ∀ o ∈ os, '=' ∉ o.1) (hne : os ≠ []) :
    ∃ args, editConfig (os.map Opt.text) = ([.script args], .ok ()) ∧ decodeArgs args = some os :=
  editConfig_ok os h hne

/-- C62: nothing is invoked without options. -/
theorem C62_no_options : editConfig [] = ([], .ok ()) := rfl

/-- C62: an option without `=` stops everything before the script runs. -/
theorem C62_malformed (opts : List Str) (o : Str) (ho : o ∈ opts) (h : '=' ∉ o) :
    editConfig opts = ([], .error .value) := by
  have hs : ∀ opts : List Str, o ∈ opts → editArgs opts = .error .value := by
    intro opts
    induction opts with
    | nil => simp
    | cons p os ih =>
      intro ho
      have herr : ∀ p : Str, optionArgs p = .error .value ∨ ∃ as, optionArgs p = .ok as := by
        intro p
        simp only [optionArgs, splitEq]
        cases findChar '=' p with
        | none => exact Or.inl rfl
        | some i =>
          simp only [bind, Except.bind]
          right
          split
          · exact ⟨_, rfl⟩
          split
          · exact ⟨_, rfl⟩
          split
          · exact ⟨_, rfl⟩
          · exact ⟨_, rfl⟩
      rcases List.mem_cons.1 ho with rfl | ho
      · simp only [editArgs, optionArgs, splitEq, findChar_none _ _ h, bind, Except.bind]
      · simp only [editArgs, bind, Except.bind]
        rcases herr p with e | ⟨as, e⟩
        · rw [e]
        · rw [e, ih ho]
  unfold editConfig
  rw [if_neg (by intro he; rw [List.isEmpty_iff] at he; subst he; simp at ho), hs opts ho]

example : editConfig [cs!"A=y", cs!"B=n", cs!"C=m", cs!"D=\"x=y\"", cs!"A=n"] =
    ([.script [cs!"-e", cs!"A", cs!"-d", cs!"B", cs!"-m", cs!"C", cs!"--set-val", cs!"D", cs!"\"x=y\"", cs!"-d", cs!"A"]],
      .ok ()) := by decide

/-! ## C63 -/

/-- C63: for any options, any well formed `.config` and any defaults, the run ends with one invocation applying
all the options; errors are logged exactly for the unmet dependencies, warnings exactly for the unavailable
architecture capabilities, and every other invocation of the script is a query of a default. Values to be set
are assumed non-empty (an empty one counts as absent, kconfig.py:82). -/
theorem C63_check_deps (options : List (Opt × List Opt)) (conf : List ConfLine) (dflt : Str → Option Str)
    (hne : options ≠ [])
    (ho : ∀ p ∈ options, '=' ∉ p.1.1 ∧ p.1.2 ≠ []) (hdep : ∀ p ∈ options, ∀ d ∈ p.2, '=' ∉ d.1)
    (hconf : ∀ l ∈ conf, l.WF)
    (hd : ∀ n v, dflt n = some v → v ≠ cs!"undef" ∧ strip v = v) :
    ∃ evs args,
      editConfigCheckDeps (conf.map ConfLine.text) (fun _ => printDefault dflt)
          (options.map fun p => (Opt.text p.1, p.2.map Opt.text)) = (evs ++ [.script args], .ok ()) ∧
      decodeArgs args = some (options.map Prod.fst) ∧
      (∀ o d, KEvent.error o d ∈ evs ↔ ∃ p ∈ options, ∃ dep ∈ p.2, o = Opt.text p.1 ∧ d = Opt.text dep ∧
        Unmet dep (effective (options.map Prod.fst) (assignments conf) dflt dep.1)) ∧
      (∀ o d, KEvent.warn o d ∈ evs ↔ ∃ p ∈ options, ∃ dep ∈ p.2, o = Opt.text p.1 ∧ d = Opt.text dep ∧
        Unavailable dep (effective (options.map Prod.fst) (assignments conf) dflt dep.1)) ∧
      ∀ as, KEvent.script as ∈ evs → ∃ p ∈ options, ∃ dep ∈ p.2, as = [cs!"-s", dep.1] := by
  have hos : ∀ o ∈ options.map Prod.fst, '=' ∉ o.1 := by
    intro o h; obtain ⟨p, hp, rfl⟩ := List.mem_map.1 h; exact (ho p hp).1
  have hvs : ∀ o ∈ options.map Prod.fst, o.2 ≠ [] := by
    intro o h; obtain ⟨p, hp, rfl⟩ := List.mem_map.1 h; exact (ho p hp).2
  obtain ⟨toset, t1, -, t2⟩ := tosetOf_spec (options.map Prod.fst) hos
  obtain ⟨cfg, c1, c2⟩ := parseConfig_spec conf hconf
  obtain ⟨args, a1, a2⟩ := editConfig_ok (options.map Prod.fst) hos (by simpa using hne)
  let work : List (Str × Opt) := options.flatMap fun p => p.2.map fun d => (Opt.text p.1, d)
  have hmem : ∀ q : Str × Opt, q ∈ work ↔ ∃ p ∈ options, ∃ dep ∈ p.2, q = (Opt.text p.1, dep) := by
    intro q; simp only [work, List.mem_flatMap, List.mem_map]; constructor
    · rintro ⟨p, hp, d, hd, rfl⟩; exact ⟨p, hp, d, hd, rfl⟩
    · rintro ⟨p, hp, d, hd, rfl⟩; exact ⟨p, hp, d, hd, rfl⟩
  have hw : ∀ p ∈ work, '=' ∉ p.2.1 := by
    intro q hq; obtain ⟨p, hp, d, hd, rfl⟩ := (hmem q).1 hq; exact hdep p hp d hd
  obtain ⟨evs, e1, e2, e3, e4⟩ := checkDeps_spec (options.map Prod.fst) (assignments conf) dflt toset cfg work hw hvs t2 c2 hd []
  have hkeys : (options.map fun p => (Opt.text p.1, p.2.map Opt.text)).map Prod.fst = (options.map Prod.fst).map Opt.text := by
    simp
  have hwork : ((options.map fun p => (Opt.text p.1, p.2.map Opt.text)).flatMap fun od => od.2.map fun d => (od.1, d)) =
      work.map fun p => (p.1, Opt.text p.2) := by
    simp only [work, List.flatMap_map, List.map_flatMap, List.map_map]
    rfl
  refine ⟨evs, args, ?_, a2, ?_, ?_, ?_⟩
  · unfold editConfigCheckDeps
    rw [if_neg (by simpa using hne), hkeys, t1, c1, hwork]
    simp only [e1, a1]
  · intro o d
    rw [e2]
    constructor
    · rintro ⟨q, hq, rfl, rfl, hu⟩
      obtain ⟨p, hp, dep, hdep, rfl⟩ := (hmem q).1 hq
      exact ⟨p, hp, dep, hdep, rfl, rfl, hu⟩
    · rintro ⟨p, hp, dep, hdep, rfl, rfl, hu⟩
      exact ⟨_, (hmem _).2 ⟨p, hp, dep, hdep, rfl⟩, rfl, rfl, hu⟩
  · intro o d
    rw [e3]
    constructor
    · rintro ⟨q, hq, rfl, rfl, hu⟩
      obtain ⟨p, hp, dep, hdep, rfl⟩ := (hmem q).1 hq
      exact ⟨p, hp, dep, hdep, rfl, rfl, hu⟩
    · rintro ⟨p, hp, dep, hdep, rfl, rfl, hu⟩
      exact ⟨_, (hmem _).2 ⟨p, hp, dep, hdep, rfl⟩, rfl, rfl, hu⟩
  · intro as has
    obtain ⟨q, hq, rfl⟩ := e4 as has
    obtain ⟨p, hp, dep, hdep, rfl⟩ := (hmem q).1 hq
    exact ⟨p, hp, dep, hdep, rfl⟩

/-- a case with an error, a warning, a tolerated `=n` and a dependency set by another option -/
example :
    let options : List (Opt × List Opt) :=
      [((cs!"A", cs!"y"), [(cs!"B", cs!"y"), (cs!"C", cs!"n"), (cs!"HAVE_D", cs!"y")]), ((cs!"E", cs!"m"), [(cs!"A", cs!"y"), (cs!"F", cs!"y")])]
    let conf : List ConfLine := [.comment [] cs!" x\n", .assign [] (cs!"B", cs!"m") cs!"\n", .blank cs!"\n"]
    let dflt : Str → Option Str := fun n => if n = cs!"F" then some cs!"y" else none
    editConfigCheckDeps (conf.map ConfLine.text) (fun _ => printDefault dflt)
      (options.map fun p => (Opt.text p.1, p.2.map Opt.text)) =
    ([.error cs!"A=y" cs!"B=y", .script [cs!"-s", cs!"C"], .script [cs!"-s", cs!"HAVE_D"], .warn cs!"A=y" cs!"HAVE_D=y",
      .script [cs!"-s", cs!"F"], .script [cs!"-e", cs!"A", cs!"-m", cs!"E"]], .ok ()) := by decide +kernel

/-! ## C64 -/

/-- C64: any file of blank lines, comments and assignments is read as the last assignment of each name. -/
theorem C64_parse_config (ls : List ConfLine) (h : ∀ l ∈ ls, l.WF) :
    ∃ d, parseConfig (ls.map ConfLine.text) = .ok d ∧ ∀ n, dget n d = lastValue (assignments ls) n :=
  parseConfig_spec ls h

/-- the last assignment, spelled out -/
theorem C64_last (os : List Opt) (n v : Str) :
    lastValue os n = some v ↔ ∃ pre post, os = pre ++ (n, v) :: post ∧ ∀ w, (n, w) ∉ post := by
  induction os with
  | nil => simp [lastValue_nil]
  | cons o os ih =>
    rw [lastValue_cons]
    cases hl : lastValue os n with
    | some w =>
      simp only [Option.some.injEq]
      rw [hl] at ih
      simp only [Option.some.injEq] at ih
      rw [ih]
      constructor
      · rintro ⟨pre, post, rfl, h⟩; exact ⟨o :: pre, post, rfl, h⟩
      · rintro ⟨pre, post, he, h⟩
        cases pre with
        | nil =>
          simp only [List.nil_append, List.cons.injEq] at he
          obtain ⟨-, rfl⟩ := he
          exact absurd (lastValue_mem hl) (h w)
        | cons p pre =>
          simp only [List.cons_append, List.cons.injEq] at he
          exact ⟨pre, post, he.2, h⟩
    | none =>
      have hno : ∀ w, (n, w) ∉ os := by
        intro w hw
        unfold lastValue at hl
        simp only [Option.map_eq_none_iff, List.find?_eq_none, List.mem_reverse, decide_eq_true_eq] at hl
        exact hl _ hw rfl
      by_cases hn : o.1 = n
      · simp only [hn, if_true, Option.some.injEq]
        constructor
        · rintro rfl; exact ⟨[], os, by rw [← hn]; rfl, hno⟩
        · rintro ⟨pre, post, he, h⟩
          cases pre with
          | nil =>
            simp only [List.nil_append, List.cons.injEq] at he
            rw [he.1]
          | cons p pre =>
            simp only [List.cons_append, List.cons.injEq] at he
            exact absurd (by rw [he.2]; simp : (n, v) ∈ os) (hno v)
      · simp only [hn, if_false]
        constructor
        · intro h; cases h
        · rintro ⟨pre, post, he, h⟩
          cases pre with
          | nil =>
            simp only [List.nil_append, List.cons.injEq] at he
            rw [he.1] at hn; exact absurd rfl hn
          | cons p pre =>
            simp only [List.cons_append, List.cons.injEq] at he
            exact absurd (by rw [he.2]; simp : (n, v) ∈ os) (hno v)

/-- C64: a line that is neither blank, comment nor an assignment is an error. -/
theorem C64_malformed (pre post : List Str) (l : Str) (hl : strip l ≠ []) (hc : ¬ cs!"#" <+: strip l) (he : '=' ∉ strip l) :
    ∃ x, parseConfig (pre ++ l :: post) = .error x := by
  have hgo : ∀ (ls : List Str) (d : Dict Str Str), strip l ∈ ls → ∃ x, parseConfigGo d ls = .error x := by
    intro ls
    induction ls with
    | nil => intro d h; simp at h
    | cons p ls ih =>
      intro d h
      simp only [parseConfigGo, bind, Except.bind]
      cases hp : parseConfigLine d p with
      | error x => exact ⟨x, rfl⟩
      | ok d' =>
        rcases List.mem_cons.1 h with rfl | h
        · simp [parseConfigLine, splitEq, findChar_none _ _ he, bind, Except.bind] at hp
        · exact ih d' h
  unfold parseConfig
  refine hgo _ _ ?_
  rw [List.mem_filter]
  refine ⟨by simp, ?_⟩
  have : startsWith (strip l) cs!"#" = false := by
    rw [← Bool.not_eq_true, startsWith_iff]; exact hc
  rw [this]
  cases h : strip l with
  | nil => exact absurd h hl
  | cons c cs => rfl

example : parseConfig [cs!"#\n", cs!"# CONFIG_X is not set\n", cs!"\n", cs!"CONFIG_A=y\n", cs!"CONFIG_S=\"a=b\"\n", cs!"CONFIG_A=m\n"] =
    .ok [(cs!"A", cs!"m"), (cs!"S", cs!"\"a=b\"")] := by decide

/-! ## C65 -/

/-- the option table of a freshly imported program's first object of that variant -/
def freshKconfig (k : Kind) (abi : Str) (bits32 : Bool) (v : Ver) (key : Str) : Option (List Str) :=
  dget key (((initialStore k).addAll (ctorAdds k abi bits32)).getItem v).1

/-- C65 is false of the code: constructing an ARM EABI object and then an ARM OABI object leaves
`OABI_COMPAT=n` in the options of the OABI object. -/
theorem C65_variants_independent_refuted :
    ¬ ∀ (hist : List ArchOp) (k : Kind) (v0 : Ver) (abi : Str) (bits32 : Bool) (a : Arch),
        newArch k v0 abi bits32 = .ok a → ∀ (v : Ver) (key : Str),
        dget key (archKconfig (runArchOps initialStore (hist ++ [.create k v0 abi bits32])) a v) =
          freshKconfig k abi bits32 v key := by
  intro h
  have := h [.create .arm [5, 10] cs!"eabi" true] .arm [5, 10] cs!"oabi" true
    _ rfl [5, 10] cs!"OABI_COMPAT=n"
  revert this
  decide +kernel

/-- C65, the part that holds: if every object of the class has the same ABI and bitness, whatever the history of
other classes, versions and lookups, the options are those of a fresh object (provided, as in any program, the
class is not consulted at that version before it has an object).
Missing: several variants of one class in one process. -/
theorem C65_variants_independent_partial (h1 h2 : List ArchOp) (k : Kind) (v0 : Ver) (abi : Str) (bits32 : Bool) (a : Arch)
    (ha : newArch k v0 abi bits32 = .ok a) (v : Ver) (key : Str)
    (hsame : ∀ w abi' b', ArchOp.create k w abi' b' ∈ h1 ++ .create k v0 abi bits32 :: h2 → abi' = abi ∧ b' = bits32)
    (hno : ArchOp.lookup k v ∉ h1) :
    dget key (archKconfig (runArchOps initialStore (h1 ++ .create k v0 abi bits32 :: h2)) a v) =
      freshKconfig k abi bits32 v key := by
  unfold archKconfig freshKconfig
  rw [newArch_kind ha, runArchOps_opsOn]
  have hu := C05_arch_tables_unambiguous k abi bits32
  have hmem : ∀ e : VEntry Str (List Str),
      e ∈ k.kconfigTable ++ addsOf (beforeFirstGet v ((h1 ++ ArchOp.create k v0 abi bits32 :: h2).flatMap (ArchOp.opsOn k))) ↔
      e ∈ k.kconfigTable ++ ctorAdds k abi bits32 := by
    rintro ⟨s, e, q, x⟩
    simp only [List.mem_append]
    constructor
    · rintro (h | h)
      · exact Or.inl h
      · exact Or.inr (mem_adds_opsOn k abi bits32 _ hsame (mem_beforeFirstGet (mem_addsOf.1 h)))
    · rintro (h | h)
      · exact Or.inl h
      · exact Or.inr (adds_before_get k v v0 abi bits32 h1 h2 a hno ha h)
  have hu' : Unambiguous (k.kconfigTable ++
      addsOf (beforeFirstGet v ((h1 ++ ArchOp.create k v0 abi bits32 :: h2).flatMap (ArchOp.opsOn k)))) :=
    fun v k s e s' e' x y hx hy => hu v k s e s' e' x y ((hmem _).1 hx) ((hmem _).1 hy)
  have hf : (initialStore k).addAll (ctorAdds k abi bits32) = VDict.init (k.kconfigTable ++ ctorAdds k abi bits32) := by
    unfold initialStore VDict.addAll VDict.init
    rw [List.foldl_append]
  rw [hf]
  apply Option.ext
  intro x
  rw [lookup_covers _ _ _ _ hu]
  have := history_covers k.kconfigTable
    ((h1 ++ ArchOp.create k v0 abi bits32 :: h2).flatMap (ArchOp.opsOn k)) v key x hu'
  refine this.trans ?_
  simp only [Covers, hmem]

example :
    let h : List ArchOp := [.create .x86 [5, 10] cs!"x64" false, .lookup .x86 [5, 10], .create .arm [4, 0] cs!"oabi" true,
      .lookup .arm [4, 0]]
    (newArch .arm [5, 10] cs!"oabi" true).isOk = true ∧
    (∀ w abi' b', ArchOp.create .arm w abi' b' ∈ h ++ .create .arm [5, 10] cs!"oabi" true :: [] → abi' = cs!"oabi" ∧ b' = true) ∧
    ArchOp.lookup .arm [5, 10] ∉ h ∧
    freshKconfig .arm cs!"oabi" true [5, 10] cs!"OABI_COMPAT=y" = some [cs!"AEABI=y", cs!"THUMB2_KERNEL=n"] := by
  refine ⟨by decide, ?_, by decide, by decide +kernel⟩
  intro w abi' b' h
  simp at h
  rcases h with ⟨-, rfl, rfl⟩ | ⟨-, rfl, rfl⟩ <;> exact ⟨rfl, rfl⟩

end Verif
