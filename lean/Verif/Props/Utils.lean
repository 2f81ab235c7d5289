import Verif.Lemmas.Utils
/-! # C01-C04, C06-C08, C19: utilities -/
set_option autoImplicit false

namespace Verif
open Spec

/-! ## C01 -/

/-- C01 (prefixes): either no prefix matches and the string is unchanged, or exactly the first
matching prefix is removed. -/
theorem C01_noprefix (s : Str) (pxs : List Str) :
    ((∀ p ∈ pxs, ¬ p <+: s) ∧ noprefix s pxs = s) ∨
    (∃ pre p post, pxs = pre ++ p :: post ∧ (∀ q ∈ pre, ¬ q <+: s) ∧ p ++ noprefix s pxs = s) :=
  noprefix_cases s pxs

example : noprefix cs!"__x64_sys_open" [cs!"sys_", cs!"__x64_", cs!"__x64_sys_"] = cs!"sys_open" := by decide

/-- C01 (suffixes): mirror image, for non-empty suffixes. -/
theorem C01_nosuffix (s : Str) (sxs : List Str) (hne : ∀ p ∈ sxs, p ≠ []) :
    ((∀ p ∈ sxs, ¬ p <:+ s) ∧ nosuffix s sxs = s) ∨
    (∃ pre p post, sxs = pre ++ p :: post ∧ (∀ q ∈ pre, ¬ q <:+ s) ∧ nosuffix s sxs ++ p = s) :=
  nosuffix_cases s sxs hne

example : (∀ p ∈ [cs!"_time32", cs!"32"], p ≠ []) ∧
    nosuffix cs!"clock_gettime32" [cs!"_time32", cs!"32"] = cs!"clock_gettime" := by decide

/-- Why C01 excludes the empty suffix: it matches every string and `s[:-0]` is empty. -/
theorem C01_empty_suffix_quirk (s : Str) (sxs : List Str) : nosuffix s ([] :: sxs) = [] := by
  simp [nosuffix, endsWith, sliceToNeg]

/-- C01: the predicates agree with the strippers. -/
theorem C01_any (s : Str) (l : List Str) :
    (anyprefix s l = true ↔ ∃ p ∈ l, p <+: s) ∧ (anysuffix s l = true ↔ ∃ p ∈ l, p <:+ s) := by
  constructor
  · simp [anyprefix, startsWith_iff]
  · simp [anysuffix, endsWith_iff]

/-! ## C02, C03 -/

section
variable {κ β : Type} [DecidableEq κ]

/-- C02: after any history of additions and lookups on a dict built from any initial entries, looking
up `v` gives for key `k` exactly the documented value, computed from the additions made before the
first lookup of `v` (which is this one, if `v` was never looked up). -/
theorem C02_versioned_dict_history (entries : List (VEntry κ β)) (hist : List (VOp κ β)) (v : Ver) (k : κ) (x : β) :
    dget k ((runOps (VDict.init entries) hist).getItem v).1 = some x ↔
      Answer (entries ++ addsOf (beforeFirstGet v hist)) v k x :=
  history_answer entries hist v k x

/-- C02: no entry exactly when no addition for `k` covers `v`. -/
theorem C02_versioned_dict_absent (entries : List (VEntry κ β)) (hist : List (VOp κ β)) (v : Ver) (k : κ) :
    dget k ((runOps (VDict.init entries) hist).getItem v).1 = none ↔
      ∀ s e x, (s, e, k, x) ∈ entries ++ addsOf (beforeFirstGet v hist) → ¬ (s ≤ v ∧ v < e) :=
  history_absent entries hist v k

example :
    let d : VDict Nat Nat := VDict.init [([4], [6], 0, 10), ([4], [9], 0, 11), ([4], [6], 0, 12)]
    dget 0 ((runOps d [.get [7], .add [5] [6] 0 13, .get [5]]).getItem [5]).1 = some 13 ∧
    dget 0 ((runOps d [.get [4, 9]]).getItem [4, 9]).1 = some 11 := by decide

/-- C03 is false of the code: a value added after the version was looked up once stays invisible. -/
theorem C03_additions_visible_refuted :
    ¬ ∀ (hist : List (VOp Nat Nat)) (s e v : Ver) (k x : Nat), s ≤ v → v < e →
        dget k ((runOps VDict.empty (hist ++ [.add s e k x])).getItem v).1 = some x := by
  intro h
  have := h [.get [5]] [4] [6] [5] 0 1 (by decide) (by decide)
  revert this
  decide

/-- C03, the part that holds: the value is returned by every later lookup if the version was not looked
up before the addition and no other range containing the version defines the key.
Missing from the full statement: earlier lookups of the same version. -/
theorem C03_additions_visible_partial (h1 h2 : List (VOp κ β)) (s e v : Ver) (k : κ) (x : β)
    (hs : s ≤ v) (he : v < e) (hget : VOp.get v ∉ h1)
    (honly : ∀ s' e' y, VOp.add s' e' k y ∈ h1 ++ h2 → ¬ (s' ≤ v ∧ v < e')) :
    dget k ((runOps VDict.empty (h1 ++ .add s e k x :: h2)).getItem v).1 = some x :=
  additions_visible h1 h2 s e v k x hs he hget honly

example : dget 3 ((runOps (VDict.empty : VDict Nat Nat)
    ([.add [1] [2] 3 9, .get [1]] ++ .add [4] [6] 3 7 :: [.get [5], .add [4] [6] 4 8])).getItem [5]).1 = some 7 := by
  decide
end

/-- C03, lists: false of the code in the same way. -/
theorem C03_list_additions_visible_refuted :
    ¬ ∀ (hist : List (LOp Nat)) (s e v : Ver) (xs : List Nat) (x : Nat), s ≤ v → v < e → x ∈ xs →
        x ∈ ((runLOps VList.empty (hist ++ [.add s e xs])).getItem v).1 := by
  intro h
  have := h [.get [5]] [4] [6] [5] [1] 1 (by decide) (by decide) (by decide)
  revert this
  decide

/-- C03, lists, the part that holds: no earlier lookup of the version. -/
theorem C03_list_additions_visible_partial {β : Type} (h1 h2 : List (LOp β)) (s e v : Ver) (xs : List β) (x : β)
    (hs : s ≤ v) (he : v < e) (hx : x ∈ xs) (hget : LOp.get v ∉ h1) :
    x ∈ ((runLOps VList.empty (h1 ++ .add s e xs :: h2)).getItem v).1 := by
  rw [runLOps_getItem [] VList.empty _ v rfl rfl, mem_listAnswer]
  refine ⟨s, e, xs, ?_, hs, he, hx⟩
  rw [List.nil_append, listBefore_append hget]
  simp [listBefore, listAdds_append, listAdds]

example : LOp.get [5] ∉ [.add [1] [6] [1, 2], LOp.get [1]] ∧
    ((runLOps VList.empty ([.add [1] [6] [1, 2], .get [1]] ++ .add [4] [6] [3] :: [.get [5], .add [4] [6] [4]])).getItem [5]).1 =
      [1, 2, 3] := by decide

/-! ## C04 -/

/-- C04: after any history of additions and lookups on a list built from any initial entries, looking up `v` gives exactly
the documented values, computed from the additions made before the first lookup of `v`. -/
theorem C04_versioned_list {β : Type} (entries : List (Ver × Ver × List β)) (hist : List (LOp β)) (v : Ver) :
    ((runLOps (VList.init entries) hist).getItem v).1 = listAnswer (entries ++ listAdds (listBefore v hist)) v :=
  runLOps_getItem entries _ hist v rfl (by rw [VList.init_cache]; rfl)

/-- C04: a value is present iff some entry lists it for a range containing the version. -/
theorem C04_versioned_list_mem {β : Type} (entries : List (Ver × Ver × List β)) (hist : List (LOp β)) (v : Ver) (x : β) :
    x ∈ ((runLOps (VList.init entries) hist).getItem v).1 ↔
      ∃ s e vals, (s, e, vals) ∈ entries ++ listAdds (listBefore v hist) ∧ s ≤ v ∧ v < e ∧ x ∈ vals := by
  rw [C04_versioned_list, mem_listAnswer]

example : ((runLOps (VList.init [([1], [5], [10, 11]), ([2], [4], [20])]) [.get [4], .add [1] [5] [12]]).getItem [3, 1]).1 =
    [10, 11, 12, 20] := by
  decide

/-! ## C06 -/

/-- C06: a path inside the root is relativised. -/
theorem C06_maybe_rel_inside (root r : Path) (h : r.abs = false) :
    maybeRel (root.join r) (some root) = .ok r := by
  obtain ⟨a, p⟩ := r
  simp only at h; subst h
  simp [maybeRel, Path.join, Path.isRelativeTo, Path.relativeTo]

/-- C06: the call always succeeds. Either the path is the root joined with a relative path, which is the
result, or it is not under the root and is returned as is. -/
theorem C06_maybe_rel_cases (path root : Path) :
    (∃ r : Path, r.abs = false ∧ path = root.join r ∧ maybeRel path (some root) = .ok r) ∨
    ((∀ r : Path, r.abs = false → path ≠ root.join r) ∧ maybeRel path (some root) = .ok path) :=
  maybeRel_cases path root

/-- C06: without root nothing changes. -/
theorem C06_maybe_rel_none (path : Path) : maybeRel path none = .ok path := rfl

example : maybeRel ⟨true, [cs!"k", cs!"fs", cs!"open.c"]⟩ (some ⟨true, [cs!"k"]⟩) = .ok ⟨false, [cs!"fs", cs!"open.c"]⟩
    ∧ maybeRel ⟨true, [cs!"k2", cs!"fs"]⟩ (some ⟨true, [cs!"k"]⟩) = .ok ⟨true, [cs!"k2", cs!"fs"]⟩ := by decide

/-! ## C07 -/

/-- C07: the fields read back from the text add up to the duration, their units are the last ones of
h, m, s, every field but the first is below 60, and the first is not zero unless it is the only one. -/
theorem C07_format_duration (t : Nat) :
    let fs := readFields 0 (formatDuration t)
    (fs.map fun f => f.1 * unitSeconds f.2).sum = t ∧
    fs.map Prod.snd <:+ ['h', 'm', 's'] ∧ fs ≠ [] ∧
    (∀ f ∈ fs.tail, f.1 < 60) ∧ (∀ f rest, fs = f :: rest → rest ≠ [] → f.1 ≠ 0) ∧
    (∀ f rest, fs = f :: rest → f.2 ≠ 'h' → f.1 < 60) :=
  formatDuration_spec t

/-- C07: the fields are separated by single spaces, every field but the first has exactly two digits, and the first
has no leading zero (a lone `0s` aside). -/
theorem C07_format_duration_widths (t : Nat) : ∃ (first : Str) (rest : List Str),
    formatDuration t = joinWith cs!" " (first :: rest) ∧ (∀ w ∈ first :: rest, ' ' ∉ w) ∧
    (∀ w ∈ rest, w.length = 3) ∧ (first.head? = some '0' → t = 0) :=
  formatDuration_widths t

example : formatDuration 36610 = joinWith cs!" " [cs!"10h", cs!"10m", cs!"10s"] ∧ formatDuration 0 = cs!"0s" := by decide

/-- C07: different durations are shown differently. -/
theorem C07_format_duration_injective (a b : Nat) (h : formatDuration a = formatDuration b) : a = b := by
  have ha := (C07_format_duration a).1
  rw [h, (C07_format_duration b).1] at ha
  exact ha.symm

example : formatDuration 3723 = cs!"1h 02m 03s" ∧ readFields 0 cs!"1h 02m 03s" = [(1, 'h'), (2, 'm'), (3, 's')] := by
  decide

/-- C07: what is shown for a duration of `num / den` seconds is the closest whole number of seconds. -/
theorem C07_rounding (num den : Nat) (hd : 0 < den) :
    ∃ t, Nearest num den t ∧ ((readFields 0 (formatDurationOf num den)).map fun f => f.1 * unitSeconds f.2).sum = t :=
  ⟨_, pyRound_nearest num den hd, (C07_format_duration _).1⟩

/-- C07: there is only one such number. -/
theorem C07_nearest_unique (num den t u : Nat) (hd : 0 < den) (ht : Nearest num den t) (hu : Nearest num den u) : t = u :=
  nearest_unique num den t u hd ht hu

example : formatDurationOf 121 2 = cs!"1m 00s" ∧ formatDurationOf 123 2 = cs!"1m 02s" ∧ formatDurationOf 239 4 = cs!"1m 00s" ∧
    Nearest 121 2 60 := by
  unfold Nearest; decide

/-! ## C08 -/

/-- C08: POSIX word splitting and quote removal give the arguments back, byte strings decoded; the only failure is a
byte string that is not UTF-8. -/
theorem C08_argv_roundtrip (argv : List Part) :
    (∀ texts, List.Forall₂ (fun (p : Part) t => TextOf p t) argv texts →
      ∃ line, commandArgvToString (.argv argv) = .ok line ∧ shellWords .none none line = some texts) ∧
    ((¬ ∃ texts, List.Forall₂ (fun (p : Part) t => TextOf p t) argv texts) →
      commandArgvToString (.argv argv) = .error .unicode) := by
  constructor
  · intro texts h
    refine ⟨shlexJoin texts, ?_, shellWords_join texts⟩
    simp only [commandArgvToString, (mapRes_text argv texts).2 h, bind, Except.bind]
  · intro h
    simp only [commandArgvToString, mapRes_text_error argv h, bind, Except.bind]

/-- C08: in particular for strings. -/
theorem C08_strings_roundtrip (argv : List Str) :
    ∃ line, commandArgvToString (.argv (argv.map .str)) = .ok line ∧ shellWords .none none line = some argv := by
  refine (C08_argv_roundtrip _).1 argv ?_
  induction argv with
  | nil => exact .nil
  | cons a l ih => exact .cons rfl ih

/-- C08: a single path. -/
theorem C08_path_roundtrip (p : Str) :
    ∃ line, commandArgvToString (.path p) = .ok line ∧ shellWords .none none line = some [p] := by
  refine ⟨_, rfl, ?_⟩
  have := shellWords_join [p]
  simpa [shlexJoin, joinWith] using this

/-- What happens for a `str` command (documented as accepted): its characters become separate words. -/
theorem C08_str_is_exploded (s : Str) :
    ∃ line, commandArgvToString (.str s) = .ok line ∧ shellWords .none none line = some (s.map fun c => [c]) :=
  ⟨_, rfl, shellWords_join _⟩

/-- What happens for a `bytes` command (documented as accepted): a TypeError. -/
theorem C08_bytes_fails (b : Bytes) (h : b ≠ []) : commandArgvToString (.bytes b) = .error .type := by
  cases b with
  | nil => exact absurd rfl h
  | cons => rfl

example : commandArgvToString (.argv [.str cs!"it's", .path cs!"", .bytes [0x61, 0x20, 0xc3, 0xa9]]) =
    .ok cs!"'it'\"'\"'s' '' 'a é'" ∧ commandArgvToString (.argv [.bytes [0xff]]) = .error .unicode := by decide

/-! ## C19 -/

/-- C19: tuple comparison, as the code uses it, is the lexicographic order. -/
theorem C19_version_order (a b : Ver) : (verLt a b = true ↔ a < b) ∧ (verLe a b = true ↔ a ≤ b) :=
  ⟨verLt_iff a b, verLe_iff a b⟩

/-- C19: adjacent half-open ranges partition their union. -/
theorem C19_ranges_partition (s m e v : Ver) (h1 : s ≤ m) (h2 : m ≤ e) :
    (inRange s e v = true ↔ (inRange s m v = true ∨ inRange m e v = true)) ∧
    ¬ (inRange s m v = true ∧ inRange m e v = true) :=
  ranges_partition s m e v h1 h2

/-- C19: exactly one of the three comparisons holds; a tuple precedes its proper extensions. -/
theorem C19_trichotomy (a b : Ver) :
    (verLt a b = true ∧ a ≠ b ∧ verLt b a = false) ∨ (verLt a b = false ∧ a = b ∧ verLt b a = false) ∨
    (verLt a b = false ∧ a ≠ b ∧ verLt b a = true) :=
  ver_trichotomy a b

theorem C19_prefix_precedes (a b : Ver) (hb : b ≠ []) : verLt a (a ++ b) = true := ver_prefix_lt a b hb

example : inRange [5, 0] [5, 18] [5, 17, 3] = true ∧ inRange [5, 0] [5, 18] [5, 18] = false
    ∧ verLt [6] [6, 0] = true := by decide

end Verif
