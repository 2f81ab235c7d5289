import Verif.Lemmas.OutJson
import Verif.Lemmas.OutHtml
import Verif.Props.Kconfig
/-! # Properties of the output formats (C61, C70-C72) -/
set_option autoImplicit false

namespace Verif
open Spec

/-! ## C70 -/

/-- C70: the text output of a non-empty list is a header line and the listing of the syscalls, all in columns
starting at the same offsets. Hypothesis on paths: a `pathlib` path has no empty component. -/
theorem C70_text (scs : List Syscall) (hne : scs ≠ [])
    (hpath : ∀ sc ∈ scs, ∀ f, sc.file = some f → ∀ x ∈ f.parts, x ≠ []) :
    ∃ offs header rest, outputText scs = .ok ((header :: rest).flatMap (· ++ cs!"\n"))
      ∧ Aligned offs [cs!"INDEX", cs!"NUMBER", cs!"NAME", cs!"ORIG NAME", cs!"SYMBOL", cs!"LOCATION", cs!"KCONFIG",
          cs!"SIGNATURE"] header
      ∧ Listing offs none scs rest := by
  cases scs with
  | nil => exact absurd rfl hne
  | cons sc scs =>
    let table := some textHeader :: textRows sc.number (sc :: scs)
    refine ⟨offsFrom 0 (textWidths table), textLine 2 (textWidths table) (some textHeader),
      (textRows sc.number (sc :: scs)).map (textLine 2 (textWidths table)), ?_, ?_, ?_⟩
    · simp [outputText, textLines, table]
    · exact aligned_line textHeader _ (by simp [textHeader]) (cellsFit_of_mem table _ (by simp [table]) rfl)
    · refine listing_rows (textWidths table) (sc :: scs) sc.number true hpath ?_ ?_
      · intro s hs
        exact cellsFit_of_mem table _ (List.mem_cons_of_mem _ (mem_textRows hs _)) (textRow_length s)
      · intro _ s hs
        simp at hs
        rw [hs]

/-- a small list with a gap, a missing index, a guessed location and all forms of signatures -/
def exList : List Syscall :=
  [{ Syscall.new (some 0) 0 cs!"read" cs!"read" ⟨0x1000, 0x1000, 16, cs!"FUNC", cs!"__x64_sys_read"⟩ none with
      file := some ⟨false, [cs!"fs", cs!"read_write.c"]⟩, line := some 622, goodLocation := true,
      signature := some [cs!"unsigned int fd", cs!"char *buf", cs!"size_t count"] },
   { Syscall.new none 1 cs!"fork" cs!"sys_fork" ⟨0x1010, 0x1010, 16, cs!"FUNC", cs!"__x64_sys_fork"⟩ none with
      file := some ⟨true, [cs!"k", cs!"fork.c"]⟩, signature := some [] },
   Syscall.new (some 100) 100 cs!"bpf" cs!"bpf" ⟨0x1020, 0x1020, 16, cs!"FUNC", cs!"__x64_sys_bpf"⟩ (some cs!"CONFIG_BPF_SYSCALL")]

/-- the hypotheses of `C70_text` hold of it -/
example : exList ≠ [] ∧ ∀ sc ∈ exList, ∀ f, sc.file = some f → ∀ x ∈ f.parts, x ≠ [] := by decide +kernel

/-- and this is what is printed -/
example : (outputText exList).toOption.map String.ofList = some
    "INDEX  NUMBER  NAME  ORIG NAME  SYMBOL          LOCATION             KCONFIG      SIGNATURE                               \n  0    0x0     read             __x64_sys_read  fs/read_write.c:622               unsigned int fd, char *buf, size_t count\n-      0x1     fork  sys_fork   __x64_sys_fork  (?) /k/fork.c                     void                                    \n\n100    0x64    bpf              __x64_sys_bpf                        BPF_SYSCALL  ?                                       \n" := by
  decide +kernel

/-! ## C71 -/

/-- C71: what is written is a JSON document whose "syscalls" member has one object per syscall, in order, each
with exactly the declared members. `tag` is what `version_tag` returns. -/
theorem C71_json (k : KernelInfo) (tag : Str) (htag : versionTag k.version = .ok tag) :
    ∃ text doc kobj objs, outputJson k = .ok text ∧ IsJson text doc ∧
      Object doc [(cs!"systrack_version", .str cs!"0.7"), (cs!"kernel", kobj), (cs!"syscalls", .arr objs)] ∧
      KernelObject tag k.versionSource k.arch kobj ∧
      objs.length = k.syscalls.length ∧
      ∀ (i : Nat) (sc : Syscall), k.syscalls[i]? = some sc → ∃ j, objs[i]? = some j ∧ SyscallObject sc j := by
  refine ⟨?text, ?doc, ?kobj, (k.syscalls.map syscallJson).map Json.sortKeys, ?eq, ?isj, ?top, ?kern, by simp, ?objs⟩
  case eq =>
    simp only [outputJson, jsonData, htag, bind, Except.bind]
    rfl
  case isj => exact isJson_dump _
  case top =>
    refine object_sorted _ _ ?_ (by simp)
    simp only [List.map_cons, List.map_nil, sortKeys_arr]
    rfl
  case kern =>
    refine ⟨Json.sortKeys (.obj [(cs!"name", .str k.arch.kind.name), (cs!"bits", .num (bitsOf k.arch.bits32))]),
      Json.sortKeys (.obj [(cs!"name", .str k.arch.abi), (cs!"compat", .bool k.arch.compat),
        (cs!"bits", .num (bitsOf k.arch.abiBits32)),
        (cs!"calling_convention", .obj [(cs!"syscall_nr", .optStr k.arch.numReg),
          (cs!"parameters", .optStrs k.arch.argRegs)])]),
      Json.sortKeys (.obj [(cs!"syscall_nr", .optStr k.arch.numReg), (cs!"parameters", .optStrs k.arch.argRegs)]),
      object_sorted _ _ ?_ (by simp), object_sorted _ _ ?_ (by simp), object_sorted _ _ ?_ (by simp),
      object_sorted _ _ ?_ (by simp)⟩
    · simp only [List.map_cons, List.map_nil, sortKeys_optStr]
      rfl
    · simp [Json.sortKeys, bitsOf]
    · simp [Json.sortKeys, bitsOf]
    · simp only [List.map_cons, List.map_nil, sortKeys_optStr, sortKeys_optStrs]
  case objs =>
    intro i sc h
    refine ⟨(syscallJson sc).sortKeys, ?_, syscallObject sc⟩
    simp [h]

/-- an x86 kernel with the list above -/
def exKernel : KernelInfo :=
  { version := [6, 1, 0], versionSource := cs!"vmlinux", syscalls := exList,
    arch := { kind := .x86, version := [6, 1, 0], abi := cs!"x64", bits32 := false, numReg := some cs!"rax"
              argRegs := some [cs!"rdi", cs!"rsi", cs!"rdx", cs!"r10", cs!"r8", cs!"r9"] } }

example : versionTag exKernel.version = .ok cs!"v6.1" := by decide +kernel

/-- C71, the exception: without a version tag (two-component versions, see C18) nothing is written. -/
theorem C71_no_tag (k : KernelInfo) (a b : Nat) (h : k.version = [a, b]) : outputJson k = .error .value := by
  simp [outputJson, jsonData, h, versionTag, bind, Except.bind]

/-! ## C61, the JSON half -/

/-- C61: for a syscall with the dependency found in the shipped tables, the "kconfig" member is the value of the
table again, without prefix; it is null when no table has one. -/
theorem C61_json (kd : Kind) (v : Ver) (name : Str) (sc : Syscall) (h : sc.kconfig = shippedSyscallDeps kd v name) :
    ∃ l val, (syscallJson sc).sortKeys = .obj l ∧ (cs!"kconfig", val) ∈ l ∧
      (∀ x, val = .str x ↔ (Covers kd.syscallDepsTable v name x ∨
        ((∀ y, ¬ Covers kd.syscallDepsTable v name y) ∧ Covers kconfigSyscallDepsTable v name x))) ∧
      (val = .null ↔ (∀ y, ¬ Covers kd.syscallDepsTable v name y) ∧ ∀ y, ¬ Covers kconfigSyscallDepsTable v name y) := by
  obtain ⟨val, hv, l, hl, hp, -⟩ := syscallObject sc
  refine ⟨l, val, hl, hp.symm.subset (by simp), ?_⟩
  have hs := C61_shipped kd v name
  rw [h] at hv
  cases hd : shippedSyscallDeps kd v name with
  | none =>
    have hval := hv.1 hd
    have hno : ∀ x, ¬ (Covers kd.syscallDepsTable v name x ∨
        ((∀ y, ¬ Covers kd.syscallDepsTable v name y) ∧ Covers kconfigSyscallDepsTable v name x)) := by
      intro x hx
      have := (hs (cs!"CONFIG_" ++ x)).2 ⟨x, rfl, hx⟩
      rw [hd] at this; cases this
    have h1 : ∀ y, ¬ Covers kd.syscallDepsTable v name y := fun y hy => hno y (Or.inl hy)
    have h2 : ∀ y, ¬ Covers kconfigSyscallDepsTable v name y := fun y hy => hno y (Or.inr ⟨h1, hy⟩)
    subst hval
    refine ⟨fun x => ⟨fun e => ?_, fun hx => absurd hx (hno x)⟩, ⟨fun _ => ⟨h1, h2⟩, fun _ => rfl⟩⟩
    exact absurd e (by simp)
  | some c =>
    obtain ⟨x, hc, hx⟩ := (hs c).1 hd
    have hval := hv.2.1 x (by rw [hd, hc])
    subst hval
    refine ⟨fun y => ⟨fun e => ?_, fun hy => ?_⟩, ⟨fun e => absurd e (by simp), fun hn => ?_⟩⟩
    · injection e with e; subst e; exact hx
    · have := (hs (cs!"CONFIG_" ++ y)).2 ⟨y, rfl, hy⟩
      rw [hd, hc] at this
      injection this with this
      have := List.append_cancel_left this
      rw [this]
    · rcases hx with hx | ⟨_, hx⟩
      · exact absurd hx (hn.1 x)
      · exact absurd hx (hn.2 x)

example : shippedSyscallDeps .x86 [6, 1, 0] cs!"bpf" = some cs!"CONFIG_BPF_SYSCALL" := by decide +kernel

/-! ## C72 -/

theorem maxArgs_spec (scs : List Syscall) (n : Nat) : maxArgs scs = .ok n ↔ MaxArgs scs n := by
  have key : ((scs.filterMap Syscall.signature).map List.length).max? = some n ↔ MaxArgs scs n := by
    rw [List.max?_eq_some_iff]
    simp only [List.mem_map, List.mem_filterMap, MaxArgs]
    constructor
    · rintro ⟨⟨sig, ⟨sc, hsc, hs⟩, hl⟩, hall⟩
      exact ⟨⟨sc, hsc, sig, hs, hl⟩, fun sc hsc sig hs => hall _ ⟨sig, ⟨sc, hsc, hs⟩, rfl⟩⟩
    · rintro ⟨⟨sc, hsc, sig, hs, hl⟩, hall⟩
      refine ⟨⟨sig, ⟨sc, hsc, hs⟩, hl⟩, ?_⟩
      rintro b ⟨sig', ⟨sc', hsc', hs'⟩, rfl⟩
      exact hall sc' hsc' sig' hs'
  unfold maxArgs
  split
  · next h => rw [h] at key; simp at key; simp [key]
  · next m h => rw [h] at key; simpa using key

/-- C72 for lists where some syscall is known to take an argument: the header and every row cover 6 + n columns,
n being the largest number of arguments, and the rows show the syscalls in order. -/
theorem C72_html_partial (css js : Str) (k : KernelInfo) (tag : Str) (htag : versionTag k.version = .ok tag) (n : Nat)
    (hn : MaxArgs k.syscalls n) (hpos : 0 < n) :
    ∃ (before header : Str) (rows : List Str) (after : Str), outputHtml true css js k = .ok (before ++ header ++ rows.flatten ++ after) ∧
      width header = 6 + n ∧ rows.length = k.syscalls.length ∧
      ∀ (i : Nat) (sc : Syscall), k.syscalls[i]? = some sc →
        ∃ row, rows[i]? = some row ∧ width row = 6 + n ∧ HtmlRow sc row := by
  refine ⟨htmlBefore css tag k.arch, htmlHeader k.arch n, k.syscalls.map (htmlRow tag n), htmlAfter js, ?_, width_header _ _, by simp, ?_⟩
  · simp only [outputHtml, (maxArgs_spec _ _).2 hn, htag, bind, Except.bind, List.flatMap]
    rfl
  · intro i sc h
    have hm := hn.2 sc (List.mem_of_getElem? h)
    obtain ⟨h1, h2⟩ := reads_row tag n sc hm
    refine ⟨htmlRow tag n sc, by simp [h], ?_, h1⟩
    rw [h2]
    have : spanOf n = n := if_neg (by omega)
    rw [this]
    split <;> rfl

example : MaxArgs exKernel.syscalls 3 ∧ 0 < 3 := ⟨(maxArgs_spec _ _).1 (by decide +kernel), by decide⟩

/-- C72: the parts of an argument cell: the type ends with the last space, the name is the rest. -/
theorem C72_argument (arg : Str) :
    ∃ ty nm, htmlArg arg = cs!"\t\t\t\t\t<td><span class=\"argtype\">" ++ htmlEscape ty ++
        cs!"</span><span class=\"argname\">" ++ htmlEscape nm ++ cs!"</span></td>\n" ∧
      ty ++ nm = arg ∧ ' ' ∉ nm ∧ (ty = [] ∨ ∃ t, ty = t ++ cs!" ") := by
  refine ⟨arg.take (argCut arg), arg.drop (argCut arg), rfl, List.take_append_drop _ _, ?_⟩
  have key : ∀ s : Str, (match rfindChar ' ' s with
      | none => ' ' ∉ s
      | some i => ' ' ∉ s.drop (i + 1) ∧ ∃ t, s.take (i + 1) = t ++ cs!" ") := by
    intro s
    induction s with
    | nil => simp [rfindChar]
    | cons c s ih =>
      simp only [rfindChar]
      cases h : rfindChar ' ' s with
      | some i =>
        rw [h] at ih
        simp only [] at ih ⊢
        obtain ⟨h1, t, h2⟩ := ih
        exact ⟨by simpa using h1, c :: t, by simp [h2]⟩
      | none =>
        rw [h] at ih
        simp only [] at ih
        by_cases hc : c = ' '
        · subst hc
          exact ⟨by simpa using ih, [], by simp⟩
        · simp only [if_neg hc]
          intro hm
          rcases List.mem_cons.1 hm with hm | hm
          · exact hc hm.symm
          · exact ih hm
  have := key arg
  unfold argCut
  split
  · next i h => rw [h] at this; exact ⟨this.1, Or.inr this.2⟩
  · next h => rw [h] at this; exact ⟨by simpa using this, Or.inl (by simp)⟩

/-- a syscall without arguments -/
def exVoid : Syscall :=
  { Syscall.new (some 57) 57 cs!"fork" cs!"fork" ⟨0x1010, 0x1010, 16, cs!"FUNC", cs!"__x64_sys_fork"⟩ none with
    signature := some [] }

/-- C72 is false of the code when every known signature is empty: `colspan="0"` covers one column, not none. -/
theorem C72_html_refuted :
    ¬ ∀ (css js : Str) (k : KernelInfo) (tag : Str), versionTag k.version = .ok tag → ∀ n, MaxArgs k.syscalls n →
      ∃ (before header : Str) (rows : List Str) (after : Str), outputHtml true css js k = .ok (before ++ header ++ rows.flatten ++ after) ∧
        rows = k.syscalls.map (htmlRow tag n) ∧ ∀ row ∈ rows, width row = width header ∧ width header = 6 + n := by
  intro hall
  let k : KernelInfo := { exKernel with syscalls := [exVoid] }
  obtain ⟨_, header, rows, _, _, hr, hw⟩ := hall [] [] k cs!"v6.1" (by decide +kernel) 0
    ((maxArgs_spec _ _).1 (by decide +kernel))
  have hmem : htmlRow cs!"v6.1" 0 exVoid ∈ rows := by rw [hr]; simp [k]
  obtain ⟨h1, h2⟩ := hw _ hmem
  have h3 : width (htmlRow cs!"v6.1" 0 exVoid) = 7 := by decide +kernel
  omega

/-- C72: without any known signature nothing is written, `max()` fails. -/
theorem C72_no_signature (css js : Str) (k : KernelInfo) (h : ∀ sc ∈ k.syscalls, sc.signature = none) :
    outputHtml true css js k = .error .value := by
  have : k.syscalls.filterMap Syscall.signature = [] := by
    rw [List.filterMap_eq_nil_iff]; exact h
  simp [outputHtml, maxArgs, this, bind, Except.bind]

end Verif
