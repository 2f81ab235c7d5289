import Verif.Lemmas.Texts
import Verif.Props.Location
/-! # C127: the regular expressions as texts -/
set_option autoImplicit false

namespace Verif
open Spec

/-- **C127 (names of compilers).** For every architecture, line and name of word characters, dots and dollars, `good_definition`,
which makes texts of the name and compiles them, never raises `re.error`, and answers what the rest of the model says it does. -/
theorem C127_definition_partial (a : Arch) (definition name : Str) (hn : Spliced name) :
    goodDefinitionT a definition name = .ok (goodDefinition a definition name) := by
  obtain ⟨r1, c1, a1⟩ := compile_definition a name hn
  obtain ⟨r2, c2, a2⟩ := compile_fullname name hn
  have h3 := compile_odd a name hn
  unfold goodDefinitionT goodDefinition
  rw [c1]
  simp only [bind, Except.bind, a1.match]
  split
  · rfl
  · rw [c2]
    simp only [a2.match]
    by_cases hs : startsWith name cs!"sys_" = true
    · simp only [hs, if_true, Bool.true_and]
      cases ((fullnameRe name).match? definition).isSome with
      | true => rfl
      | false =>
        simp only [Bool.false_eq_true, if_false]
        cases ht : a.defText (some name) with
        | none => rw [ht] at h3; simp only at h3 ⊢; rw [h3]
        | some t =>
          rw [ht] at h3
          obtain ⟨r, q, x, y, z⟩ := h3
          simp only [x, y, z.match]
    · simp only [hs, if_false, Bool.false_and, Bool.false_eq_true]
      cases ht : a.defText (some name) with
      | none => rw [ht] at h3; simp only at h3 ⊢; rw [h3]
      | some t =>
        rw [ht] at h3
        obtain ⟨r, q, x, y, z⟩ := h3
        simp only [x, y, z.match]

/-- **C127 (identifiers).** With a name of word characters, the texts that are made are valid, and the line is accepted exactly when
it starts with a definition of that name. -/
theorem C127_name_partial (a : Arch) (text name : Str) (hid : Ident name) :
    goodDefinitionT a text name = .ok true ∧ Defines a text name ∨ goodDefinitionT a text name = .ok false ∧ ¬ Defines a text name := by
  rw [C127_definition_partial a text name fun c hc => .inl (hid.2 c hc), ← goodDefinition_iff a text name hid]
  cases goodDefinition a text name with
  | true => exact .inl ⟨rfl, rfl⟩
  | false => exact .inr ⟨rfl, Bool.false_ne_true⟩

example : Ident cs!"openat2" ∧ goodDefinitionT { x64Arch with kind := .mips, abi := cs!"n32" } cs!"x" cs!"openat2" = .ok false := by
  constructor
  · exact ⟨by decide, by decide⟩
  · decide +kernel

/-- C127 is false in general: a parenthesis in the name, open or closed, makes an invalid expression, whatever the line, -/
theorem C127_invalid_refuted : ∃ a : Arch, ∀ name ∈ [cs!"a(b", cs!"a)b"], ∀ text, goodDefinitionT a text name = .error .reError := by
  refine ⟨x64Arch, fun name hn text => ?_⟩
  have h : ∀ name ∈ [cs!"a(b", cs!"a)b"], (match compileRe (definitionText x64Arch name) with
      | .error .reError => true
      | _ => false) = true := by decide +kernel
  have h := h name hn
  unfold goodDefinitionT
  split at h
  · next e => rw [e]; rfl
  · cases h

/-- and a dot in the name stands for any character, so that lines without the name are accepted -/
theorem C127_dot_refuted : ¬ ∀ (a : Arch) (text name : Str), goodDefinitionT a text name = .ok true → name <:+: text := by
  intro h
  have := h x64Arch cs!"SYSCALL_DEFINE0(read_part_0)" cs!"read.part.0" (by decide +kernel)
  revert this
  decide +kernel

/-! ## grep -/

/-- **C127 (grep).** The expression given to `rg`, or compiled to search the sources, is valid and finds what the model says. -/
theorem C127_grep (a : Arch) :
    ∃ r, compileRe (grepText a) = .ok r ∧ ∀ line, (r.search line).isSome = ((grepRe a).search line).isSome := by
  suffices h : ∃ r, compileRe (grepText a) = .ok r ∧ Alike r (grepRe a) by
    obtain ⟨r, h1, h2⟩ := h
    exact ⟨r, h1, h2.search⟩
  unfold grepText grepRe Arch.defText Arch.anyDefRe
  cases a.kind with
  | arm64 | riscv => exact compile_grep1 a
  | arm =>
    by_cases ha : a.abi = cs!"oabi"
    · simp only [ne_eq, ha, not_true_eq_false, if_false]
      exact compile_grep2 a _ _ piece_any_oabi
    · simp only [ne_eq, ha, not_false_eq_true, if_true]
      exact compile_grep1 a
  | x86 =>
    by_cases ha : a.abi = cs!"x32"
    · simp only [ne_eq, ha, not_true_eq_false, if_false]
      exact compile_grep2 a _ _ piece_any_x32
    · simp only [ne_eq, ha, not_false_eq_true, if_true]
      exact compile_grep1 a
  | powerpc =>
    by_cases ha : a.abi = cs!"ppc32"
    · simp only [ne_eq, ha, not_true_eq_false, if_false]
      exact compile_grep2 a _ _ piece_any_ppc
    · simp only [ne_eq, ha, not_false_eq_true, if_true]
      exact compile_grep1 a
  | mips =>
    by_cases ha : a.abi = cs!"n32"
    · simp only [ha, if_true]
      exact compile_grep3 a _ _ _ _ piece_any_sysm piece_any_n32
    · simp only [ha, if_false]
      exact compile_grep2 a _ _ piece_any_sysm

/-- **C127 (a line of grep).** So is the expression for one syscall, if its name has only word characters, dots and dollars. -/
theorem C127_row_partial (a : Arch) (name : Str) (hn : Spliced name) :
    ∃ r, compileRe (syscallGrepText a name) = .ok r ∧ ∀ line, (r.search line).isSome = ((syscallGrepRe a name).search line).isSome := by
  have h : Piece (syscallGrepText a name) (syscallGrepRe a name).bare.factors := by
    have := ((piece_colon.append (piece_base a)).append (.name hn)).append piece_end
    simpa only [syscallGrepText, syscallGrepRe, Re.cat, Re.bare, Re.factors, List.append_assoc, List.cons_append, List.nil_append,
      List.append_nil] using this
  obtain ⟨r, x, y⟩ := h.alike
  exact ⟨r, x, y.search⟩

example : Spliced cs!"read.part.0$2" ∧ (compileRe (syscallGrepText x64Arch cs!"read.part.0$2")).isOk = true := by
  constructor
  · unfold Spliced; decide
  · rfl

/-! ## Expressions without names -/

/-- **C127 (readelf and versions).** The texts for the output of `readelf` and for versions are valid, and give the same matches and
groups as the expressions of the model. -/
theorem C127_fixed :
    (∃ r, compileRe symbolPat = .ok r ∧ ∀ line, r.search line = symbolRe.search line) ∧
    (∃ r, compileRe sectionPat = .ok r ∧ ∀ n st, r.findIter n st = sectionRe.findIter n st) ∧
    (∃ r, compileRe versionPat = .ok r ∧ ∀ s, r.match? s = versionRe.match? s) := by
  refine ⟨⟨_, read_symbol, fun line => searchFrom_of_factors ?_ none line⟩, ⟨_, read_section, findIter_of_factors ?_⟩,
    ⟨_, read_version, match_of_factors rfl⟩⟩
  · rw [hex_set]; rfl
  · rw [hex_set]; rfl

/-! ## The Makefile -/

/-- **C127 (Makefile).** The text for the Makefile is valid and begins with `^`; at the beginning of a line, the rest of it matches
exactly when a line of flags is there, and the group is the level. -/
theorem C127_flags : ∃ q, compileRe flagsPat = .ok (.seq .bol q) ∧ ∀ a s, (a = [] ∨ a.getLast? = some '\n') →
    ((∃ st caps, Way q ⟨lastOr none a, s⟩ [] st caps) ↔ ∃ mid post, FlagAt (a ++ s) a mid post) ∧
    ∀ st caps, Way q ⟨lastOr none a, s⟩ [] st caps → caps = [(1, cs!"2")] ∧ ∃ mid, FlagAt (a ++ s) a mid ('\n' :: st.rest) := by
  refine ⟨_, read_flags, fun a s ha => ?_⟩
  have hf : ∀ mid post, FlagAt (a ++ s) a mid post ↔ FlagAt s [] mid post := by
    intro mid post
    unfold FlagAt
    rw [List.append_assoc, List.append_cancel_left_eq]
    simp only [List.nil_append, true_or, true_and, ha]
  simp only [way_flagsRead, hf]
  refine ⟨⟨?_, ?_⟩, fun st caps h => way_flags _ _ _ _ h⟩
  · rintro ⟨st, caps, h⟩
    obtain ⟨-, mid, h⟩ := way_flags _ _ _ _ h
    exact ⟨mid, _, h⟩
  · rintro ⟨mid, post, h⟩
    exact way_flags_of _ _ _ _ h

example : FlagAt cs!"VERSION = 6\nKBUILD_CFLAGS += -O2\nall:\n" cs!"VERSION = 6\n" cs!"KBUILD_CFLAGS += -O" cs!"\nall:\n" :=
  ⟨rfl, .inr rfl, ⟨cs!" ", cs!" ", rfl, by decide, by decide⟩, _, rfl⟩

end Verif
