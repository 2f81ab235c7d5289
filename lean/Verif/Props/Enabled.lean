import Verif.Spec.Enabled
import Verif.Props.ConfigTool
/-! # Options that have to be on are turned on (C111) -/
set_option autoImplicit false

namespace Verif
open Spec

/-! ## Deciding whether ranges cover a range -/

/-- `[lo, hi)` is covered by the ranges, in at most the given number of steps -/
def reaches (l : List (Ver × Ver)) : Nat → Ver → Ver → Bool
  | 0, lo, hi => verLe hi lo
  | n + 1, lo, hi => verLe hi lo ||
    match l.find? (fun e => verLe e.1 lo && !verLe e.2 lo) with
    | some e => reaches l n e.2 hi
    | none => false

theorem reaches_covers (l : List (Ver × Ver)) (n : Nat) (lo hi v : Ver) (h : reaches l n lo hi = true) (h1 : lo ≤ v) (h2 : v < hi) :
    ∃ e ∈ l, e.1 ≤ v ∧ v < e.2 := by
  induction n generalizing lo with
  | zero =>
    rw [reaches, verLe_iff] at h
    exact absurd (lt_of_le_of_lt h1 h2) (not_lt.2 h)
  | succ n ih =>
    rw [reaches, Bool.or_eq_true, verLe_iff] at h
    rcases h with h | h
    · exact absurd (lt_of_le_of_lt h1 h2) (not_lt.2 h)
    · split at h
      · rename_i e he
        have hp := List.find?_some he
        simp only [Bool.and_eq_true, verLe_iff] at hp
        by_cases hv : v < e.2
        · exact ⟨e, List.mem_of_find?_eq_some he, le_trans hp.1 h1, hv⟩
        · exact ih e.2 h (not_lt.1 hv)
      · cases h

/-- the later of two versions -/
def verMax (a b : Ver) : Ver := if verLe a b then b else a

theorem verMax_le (a b v : Ver) (h1 : a ≤ v) (h2 : b ≤ v) : verMax a b ≤ v := by unfold verMax; split <;> assumption

/-- the ranges in which an option has a value -/
def rangesOf (l : List (Ver × Ver × Opt)) (o : Opt) : List (Ver × Ver) := (l.filter fun e => e.2.2 = o).map fun e => (e.1, e.2.1)

theorem compatibility_more_eq : (∀ e ∈ kconfigCompatibilityTable, ∀ t ∈ e.2.2, '=' ∈ t) ∧
    ∀ e ∈ kconfigMoreSyscallsTable, '=' ∈ e.2.2.1 := by decide +kernel

theorem set_of_entry {k : Kind} {abi : Str} {bits32 : Bool} {v : Ver} {o : Opt} {s e : Ver}
    (h : (s, e, o) ∈ allEntries k abi bits32) (h1 : s ≤ v) (h2 : v < e) : SetWhileConfiguring k abi bits32 v o := by
  unfold allEntries at h
  simp only [List.mem_append, List.mem_flatMap, List.mem_map, Prod.mk.injEq] at h
  rcases h with ((⟨x, hx, t, ht, rfl, rfl, rfl⟩ | ⟨x, hx, t, ht, rfl, rfl, rfl⟩) | ⟨x, hx, rfl, rfl, rfl⟩) | ⟨x, hx, rfl, rfl, rfl⟩
  · exact .inl ⟨_, _, _, hx, h1, h2, by rw [parseOpt_text (debugging_eq x hx t ht)]; exact ht⟩
  · exact .inr (.inl ⟨_, _, _, hx, h1, h2, by rw [parseOpt_text (compatibility_more_eq.1 x hx t ht)]; exact ht⟩)
  · exact .inr (.inr (.inl ⟨x.2.2.2, _, _, by rw [parseOpt_text (compatibility_more_eq.2 x hx)]; exact hx, h1, h2⟩))
  · exact .inr (.inr (.inr ⟨x.2.2.2, _, _, by rw [parseOpt_text (variantTable_eq k abi bits32 x hx)]; exact hx, h1, h2⟩))

theorem set_of_ranges {k : Kind} {abi : Str} {bits32 : Bool} {v lo hi : Ver} {o : Opt} {n : Nat}
    (h : reaches (rangesOf (allEntries k abi bits32) o) n lo hi = true) (h1 : lo ≤ v) (h2 : v < hi) :
    SetWhileConfiguring k abi bits32 v o := by
  obtain ⟨e, he, h3, h4⟩ := reaches_covers _ _ _ _ _ h h1 h2
  unfold rangesOf at he
  simp only [List.mem_map, List.mem_filter, decide_eq_true_eq] at he
  obtain ⟨x, ⟨hx, rfl⟩, rfl⟩ := he
  exact set_of_entry (s := x.1) (e := x.2.1) hx h3 h4

/-! ## The tables -/

/-- the versions an option is turned on from, by the specification -/
def sinceOf (k : Kind) (bits32 : Bool) (opt : Str) : List Ver :=
  (onEverywhere.filter fun e => e.1 = opt).map Prod.snd ++
    (onSomewhere.filter fun e => e.1 = opt ∧ e.2.1 = k ∧ e.2.2.1 = bits32).map fun e => e.2.2.2

theorem turnedOn_iff (k : Kind) (bits32 : Bool) (v : Ver) (opt : Str) :
    TurnedOn k bits32 v opt ↔ ∃ s ∈ sinceOf k bits32 opt, s ≤ v := by
  unfold TurnedOn sinceOf
  simp only [List.mem_append, List.mem_map, List.mem_filter, decide_eq_true_eq]
  constructor
  · rintro (⟨s, h, hs⟩ | ⟨s, h, hs⟩)
    · exact ⟨s, .inl ⟨_, ⟨h, rfl⟩, rfl⟩, hs⟩
    · exact ⟨s, .inr ⟨_, ⟨h, rfl, rfl, rfl⟩, rfl⟩, hs⟩
  · rintro ⟨s, ⟨x, ⟨h, rfl⟩, rfl⟩ | ⟨x, ⟨h, rfl, rfl, rfl⟩, rfl⟩, hs⟩
    · exact .inl ⟨_, h, hs⟩
    · exact .inr ⟨_, h, hs⟩

/-- all that is checked about one architecture -/
def depsOn (deps : List (Ver × Ver × Str × Str)) (l : List (Ver × Ver × Opt)) (since : Str → List Ver) : Bool :=
  deps.all fun d =>
    ('=' ∉ d.2.2.2) &&
    -- never another value
    (l.all fun e => e.2.2.1 ≠ d.2.2.2 || e.2.2.2 = cs!"y" || verLe e.2.1 d.1 || verLe d.2.1 e.1) &&
    -- not before the version
    (l.all fun e => e.2.2.1 ≠ d.2.2.2 || verLe e.2.1 d.1 || verLe d.2.1 e.1 ||
      (since d.2.2.2).any fun s => verLe s d.1 || verLe s e.1) &&
    -- from the version on
    (since d.2.2.2).all fun s => reaches (rangesOf l (d.2.2.2, cs!"y")) 4 (verMax s d.1) d.2.1

/-- the check for an architecture -/
def depsOnFor (k : Kind) (abi : Str) (bits32 : Bool) : Bool :=
  depsOn (kconfigSyscallDepsTable ++ k.syscallDepsTable) (allEntries k abi bits32) (sinceOf k bits32)

theorem deps_on_arm (abi : Str) : depsOnFor .arm abi true = true := by
  unfold depsOnFor allEntries variantTable ctorAdds
  simp only
  split <;> decide +kernel

theorem deps_on_arm64_false : depsOnFor .arm64 [] false = true := by decide +kernel

theorem deps_on_mips_false : depsOnFor .mips [] false = true := by decide +kernel

theorem deps_on_mips_true : depsOnFor .mips [] true = true := by decide +kernel

theorem deps_on_powerpc_false : depsOnFor .powerpc [] false = true := by decide +kernel

theorem deps_on_powerpc_true : depsOnFor .powerpc [] true = true := by decide +kernel

theorem deps_on_riscv_false : depsOnFor .riscv [] false = true := by decide +kernel

theorem deps_on_riscv_true : depsOnFor .riscv [] true = true := by decide +kernel

theorem deps_on_x86_false : depsOnFor .x86 [] false = true := by decide +kernel

theorem deps_on_x86_true : depsOnFor .x86 [] true = true := by decide +kernel

theorem deps_on (k : Kind) (v0 : Ver) (abi : Str) (bits32 : Bool) (a : Arch) (h : newArch k v0 abi bits32 = .ok a) :
    depsOnFor k abi bits32 = true := by
  cases k
  · obtain rfl : bits32 = true := by
      simp only [newArch, newArm, pyAssert, bind, Except.bind] at h
      cases bits32
      · simp at h
      · rfl
    exact deps_on_arm abi
  · obtain rfl : bits32 = false := by
      simp only [newArch, newArm64, pyAssert, bind, Except.bind] at h
      cases bits32
      · rfl
      · simp at h
    exact deps_on_arm64_false
  · cases bits32 <;> [exact deps_on_mips_false; exact deps_on_mips_true]
  · cases bits32 <;> [exact deps_on_powerpc_false; exact deps_on_powerpc_true]
  · cases bits32 <;> [exact deps_on_riscv_false; exact deps_on_riscv_true]
  · cases bits32 <;> [exact deps_on_x86_false; exact deps_on_x86_true]

/-- the option given for a syscall is a value of the tables for the version -/
theorem shipped_row (k : Kind) (v : Ver) (name opt : Str) (h : shippedSyscallDeps k v name = some (cs!"CONFIG_" ++ opt)) :
    ∃ d ∈ kconfigSyscallDepsTable ++ k.syscallDepsTable, d.2.2.2 = opt ∧ d.1 ≤ v ∧ v < d.2.1 := by
  obtain ⟨x, hx, hc⟩ := (C61_shipped k v name _).1 h
  obtain rfl : opt = x := List.append_cancel_left hx
  rcases hc with ⟨s, e, hm, h1, h2⟩ | ⟨-, s, e, hm, h1, h2⟩
  · exact ⟨_, List.mem_append_right _ hm, rfl, h1, h2⟩
  · exact ⟨_, List.mem_append_left _ hm, rfl, h1, h2⟩

/-! ## C111 -/

/-- C111: an option that the output says a syscall depends on is never set to anything but `y`. -/
theorem C111_never_disabled (k : Kind) (v0 : Ver) (abi : Str) (bits32 : Bool) (a : Arch) (h : newArch k v0 abi bits32 = .ok a)
    (v : Ver) (name opt x : Str) (hd : shippedSyscallDeps k v name = some (cs!"CONFIG_" ++ opt))
    (hs : SetWhileConfiguring k abi bits32 v (opt, x)) : x = cs!"y" := by
  obtain ⟨d, hm, rfl, h1, h2⟩ := shipped_row k v name opt hd
  have hc := List.all_eq_true.1 (deps_on k v0 abi bits32 a h) d hm
  simp only [Bool.and_eq_true, decide_eq_true_eq] at hc
  obtain ⟨s, e, hm, h3, h4⟩ := allEntries_of hs hc.1.1.1
  have := List.all_eq_true.1 hc.1.1.2 _ hm
  simp only [Bool.or_eq_true, decide_eq_true_eq, verLe_iff, ne_eq, not_true_eq_false, false_or] at this
  rcases this with (this | this) | this
  · exact this
  · exact absurd (lt_of_lt_of_le h4 (le_trans this h1)) (lt_irrefl _)
  · exact absurd (lt_of_lt_of_le h2 (le_trans this h3)) (lt_irrefl _)

/-- C111 (partial: not the options left as they are, and not before the versions given): the configuration turns on the option
that a syscall depends on, exactly from the version on that the specification gives for the architecture. -/
theorem C111_enabled_partial (k : Kind) (v0 : Ver) (abi : Str) (bits32 : Bool) (a : Arch) (h : newArch k v0 abi bits32 = .ok a)
    (v : Ver) (name opt : Str) (hd : shippedSyscallDeps k v name = some (cs!"CONFIG_" ++ opt)) :
    SetWhileConfiguring k abi bits32 v (opt, cs!"y") ↔ TurnedOn k bits32 v opt := by
  obtain ⟨d, hm, rfl, h1, h2⟩ := shipped_row k v name opt hd
  have hc := List.all_eq_true.1 (deps_on k v0 abi bits32 a h) d hm
  simp only [Bool.and_eq_true, decide_eq_true_eq] at hc
  rw [turnedOn_iff]
  constructor
  · intro hs
    obtain ⟨s, e, hm, h3, h4⟩ := allEntries_of hs hc.1.1.1
    have := List.all_eq_true.1 hc.1.2 _ hm
    simp only [Bool.or_eq_true, decide_eq_true_eq, verLe_iff, ne_eq, not_true_eq_false, false_or, List.any_eq_true] at this
    rcases this with (this | this) | ⟨y, hy, this | this⟩
    · exact absurd (lt_of_lt_of_le h4 (le_trans this h1)) (lt_irrefl _)
    · exact absurd (lt_of_lt_of_le h2 (le_trans this h3)) (lt_irrefl _)
    · exact ⟨y, hy, le_trans this h1⟩
    · exact ⟨y, hy, le_trans this h3⟩
  · rintro ⟨s, hs, hv⟩
    exact set_of_ranges (List.all_eq_true.1 hc.2 s hs) (verMax_le _ _ _ hv h1) h2

/-- C111: after the configuration has succeeded (in a world as in C93), the option that the output gives for a syscall is `y` in
the `.config` file, if it is one of those turned on. -/
theorem C111_config_file (w : World) (b : Builder) (s : BState) (k : Kind) (v0 : Ver) (abi : Str) (bits32 : Bool)
    (h : createArch initialStore k v0 abi bits32 = .ok (b.arch, b.store))
    (file : List Run → List CLine) (hw : ConfigWorld w b.kdir b.configFile file) (hok : (configure w b s).1 = .ok ()) :
    ∃ R v, (configure w b s).2.hist = s.hist ++ R ∧ VersionPrinted w.output s.hist v R ∧
      ((∀ h r target o, target = cs!"olddefconfig" ∨ target = cs!"oldconfig" → MakeCall b.kdir b.arch.kind.name target r →
          SetWhileConfiguring k abi bits32 v o → valueOf (file h) o.1 = some o.2 → valueOf (file (h ++ [r])) o.1 = some o.2) →
        ∀ name opt, shippedSyscallDeps k v name = some (cs!"CONFIG_" ++ opt) → TurnedOn k bits32 v opt →
          valueOf (file (configure w b s).2.hist) opt = some cs!"y") := by
  obtain ⟨R, v, e, hv, hall⟩ := C93_configure w b s k v0 abi bits32 h file hw hok
  refine ⟨R, v, e, hv, fun hkeep name opt hd hon => ?_⟩
  have ha : ∃ a, newArch k v0 abi bits32 = .ok a := by
    unfold createArch at h
    simp only [bind, Except.bind] at h
    split at h
    · cases h
    · exact ⟨_, ‹_›⟩
  obtain ⟨a, ha⟩ := ha
  obtain ⟨d, hd', rfl, h1, h2⟩ := shipped_row k v name opt hd
  have hc := List.all_eq_true.1 (deps_on k v0 abi bits32 a ha) d hd'
  simp only [Bool.and_eq_true, decide_eq_true_eq] at hc
  exact hall hkeep (d.2.2.2, cs!"y") hc.1.1.1 ((C111_enabled_partial k v0 abi bits32 a ha v name _ hd).2 hon)

/-- C111 is false of the code: what `epoll_create` depends on is not turned on, for any architecture and version. So is what
`cachestat`, `fork`, `setuid`, `quotactl` and `swapon` depend on. -/
theorem C111_enabled_refuted (k : Kind) (v0 : Ver) (abi : Str) (bits32 : Bool) (a : Arch) (h : newArch k v0 abi bits32 = .ok a)
    (v : Ver) (name opt : Str) (hd : shippedSyscallDeps k v name = some (cs!"CONFIG_" ++ opt)) (ho : opt ∈ leftAsTheyAre) :
    ∀ x, ¬ SetWhileConfiguring k abi bits32 v (opt, x) := by
  intro x hs
  obtain rfl := C111_never_disabled k v0 abi bits32 a h v name opt x hd hs
  rw [C111_enabled_partial k v0 abi bits32 a h v name opt hd, turnedOn_iff] at hs
  obtain ⟨s, hs, -⟩ := hs
  unfold sinceOf at hs
  simp only [List.mem_append, List.mem_map, List.mem_filter, decide_eq_true_eq] at hs
  revert ho
  clear hd h
  rcases hs with ⟨x, ⟨hx, rfl⟩, -⟩ | ⟨x, ⟨hx, rfl, -⟩, -⟩
  · revert x; decide +kernel
  · revert x; decide +kernel

example : newArch .x86 [6, 6] cs!"x64" false = newX86 [6, 6] cs!"x64" false ∧ (newX86 [6, 6] cs!"x64" false).isOk = true ∧
    shippedSyscallDeps .x86 [6, 6] cs!"epoll_create" = some (cs!"CONFIG_" ++ cs!"EPOLL") ∧ cs!"EPOLL" ∈ leftAsTheyAre ∧
    shippedSyscallDeps .x86 [6, 6] cs!"userfaultfd" = some (cs!"CONFIG_" ++ cs!"USERFAULTFD") ∧
    TurnedOn .x86 false [6, 6] cs!"USERFAULTFD" :=
  ⟨rfl, by decide +kernel, by decide +kernel, by decide, by decide +kernel, .inl ⟨[4, 3], by decide +kernel, by decide⟩⟩

/-- every option that a syscall depends on somewhere is in one of the lists -/
theorem C111_lists_complete (k : Kind) (v : Ver) (name opt : Str) (hd : shippedSyscallDeps k v name = some (cs!"CONFIG_" ++ opt)) :
    opt ∈ leftAsTheyAre ∨ opt ∈ onEverywhere.map Prod.fst ∨ opt ∈ onSomewhere.map Prod.fst := by
  obtain ⟨d, hm, rfl, -, -⟩ := shipped_row k v name opt hd
  clear hd
  revert d
  cases k <;> decide +kernel

/-- C111: debug information without relocations, in all kernels; in 64-bit ones, all ABIs of the architecture. -/
theorem C111_documented (k : Kind) (abi : Str) (bits32 : Bool) (who : Option (Kind × Bool)) (o : Opt) (s e : Ver)
    (h : (who, o, s, e) ∈ documented) (hw : who = none ∨ who = some (k, bits32)) (v : Ver) (h1 : s ≤ v) (h2 : v < e) :
    SetWhileConfiguring k abi bits32 v o := by
  have : (documented.all fun d => (d.1 ≠ none && d.1 ≠ some (k, bits32)) ||
      reaches (rangesOf (allEntries k abi bits32) d.2.1) 4 d.2.2.1 d.2.2.2) = true := by
    unfold allEntries variantTable
    cases k <;> unfold ctorAdds <;> simp only
    · split <;> cases bits32 <;> decide +kernel
    all_goals cases bits32 <;> decide +kernel
  have := List.all_eq_true.1 this _ h
  simp only [Bool.or_eq_true, Bool.and_eq_true, decide_eq_true_eq] at this
  rcases this with ⟨n1, n2⟩ | this
  · rcases hw with hw | hw
    · exact absurd hw n1
    · exact absurd hw n2
  · exact set_of_ranges this h1 h2

example : (some (.x86, false), (cs!"X86_X32", cs!"y"), [3, 4], [5, 18]) ∈ documented ∧ ([3, 4] : Ver) ≤ [5, 10] ∧
    ([5, 10] : Ver) < [5, 18] := by decide +kernel

/-- C111, note 4: a kernel for OABI has compatibility support for it, one for EABI has not. -/
theorem C111_oabi (abi : Str) (v0 v : Ver) (a : Arch) (bits32 : Bool) (h : newArch .arm v0 abi bits32 = .ok a) (hv : [2, 6, 16] ≤ v)
    (hv' : v < versionInf) (x : Str) :
    SetWhileConfiguring .arm abi bits32 v (cs!"OABI_COMPAT", x) ↔ x = if abi = cs!"oabi" then cs!"y" else cs!"n" := by
  obtain rfl : bits32 = true := by
    simp only [newArch, newArm, pyAssert, bind, Except.bind] at h
    cases bits32
    · simp at h
    · rfl
  have habi : abi = cs!"eabi" ∨ abi = cs!"oabi" := by
    simp only [newArch, newArm, pyAssert, bind, Except.bind] at h
    by_cases hh : abi = cs!"eabi" ∨ abi = cs!"oabi"
    · exact hh
    · simp [hh] at h
  have hset : SetWhileConfiguring .arm abi true v (cs!"OABI_COMPAT", if abi = cs!"oabi" then cs!"y" else cs!"n") := by
    rcases habi with rfl | rfl
    · exact .inr (.inr (.inr ⟨[], [2, 6, 16], versionInf, by decide +kernel, hv, hv'⟩))
    · exact .inr (.inr (.inr ⟨[cs!"AEABI=y", cs!"THUMB2_KERNEL=n"], [2, 6, 16], versionInf, by decide +kernel, hv, hv'⟩))
  constructor
  · intro hx
    exact C78_consistent .arm abi true v cs!"OABI_COMPAT" x _ (by decide) hx hset
  · rintro rfl
    exact hset

end Verif
