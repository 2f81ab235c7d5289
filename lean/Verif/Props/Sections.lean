import Verif.Lemmas.Sections
/-! # C87: section headers -/
set_option autoImplicit false

namespace Verif
open Spec

/-- C87, partial: when all names consist of letters, digits, `_` and `.` and are different, the sections known are those of
the rows, in order, with their address, offset and size. Missing for the full property: other names. -/
theorem C87_sections_partial (out : Str) (rows : List SecRow) (after : List Str) (hr : ∀ r ∈ rows, r.WF)
    (ha : ∀ w ∈ after, w ∉ secTypes) (hout : splitWs out = rows.flatMap SecRow.words ++ after)
    (hplain : ∀ r ∈ rows, PlainName r.name) (hnodup : (rows.map fun r => r.name).Nodup) :
    extractSections out = rows.map fun r => (r.name, ⟨r.name, r.vaddr, r.off, r.size⟩) := by
  rw [extractSections_rows out rows after hr ha hout]
  have : (rows.filter fun r => decide (PlainName r.name)) = rows := by
    rw [List.filter_eq_self]; intro r h; simpa using hplain r h
  rw [this, foldSec_nodup]
  · simp [SecRow.sec]
  · simpa [SecRow.sec, List.map_map, Function.comp_def] using hnodup

/-- C87: whatever the names, a lookup gives the last row with that name if the name is plain, else nothing. -/
theorem C87_lookup (out : Str) (rows : List SecRow) (after : List Str) (hr : ∀ r ∈ rows, r.WF)
    (ha : ∀ w ∈ after, w ∉ secTypes) (hout : splitWs out = rows.flatMap SecRow.words ++ after) (n : Str) :
    (PlainName n → dget n (extractSections out) =
      ((rows.filter fun r => decide (r.name = n)).getLast?).map fun r => ⟨r.name, r.vaddr, r.off, r.size⟩) ∧
    (¬ PlainName n → dget n (extractSections out) = none) := by
  rw [extractSections_rows out rows after hr ha hout, foldSec_get]
  have e : ∀ l : List SecRow, ((l.map SecRow.sec).filter fun s => decide (s.name = n)) =
      (l.filter fun r => decide (r.name = n)).map SecRow.sec := by
    intro l; rw [List.filter_map]; rfl
  rw [e, List.filter_filter]
  constructor
  · intro hp
    have : (rows.filter fun r => decide (r.name = n) && decide (PlainName r.name)) =
        rows.filter fun r => decide (r.name = n) := by
      apply List.filter_congr
      intro r _
      by_cases hn : r.name = n
      · subst hn; simp [hp]
      · simp [hn]
    rw [this, List.getLast?_map]
    rfl
  · intro hp
    have : (rows.filter fun r => decide (r.name = n) && decide (PlainName r.name)) = [] := by
      rw [List.filter_eq_nil_iff]
      intro r _ h
      simp only [Bool.and_eq_true, decide_eq_true_eq] at h
      exact hp (h.1 ▸ h.2)
    rw [this]; rfl

/-- output with a heading, an odd name, the row of a section of another type, and two plain rows -/
def sampleSections : Str :=
  cs!"There are 4 section headers:\n\nSection Headers:\n  [Nr] Name Type Address Off Size\n  [ 0]  NULL 0000 000 000 00 0 0 0\n  [ 1] .text PROGBITS ffff1000 001000 00a0 00 AX 0 0 4096\n  [ 2] .rela.text RELA 0000 0100 0020 18 I 9 1 8\n  [10] .bss NOBITS ffff2000 002000 0b00 00 WA 0 0 64\n  [11] .data-x PROGBITS ffff3000 003000 0010 00 WA 0 0 64\nKey to Flags:\n"

/-- its rows -/
def sampleSecRows : List SecRow :=
  [⟨[cs!"There", cs!"are", cs!"4", cs!"section", cs!"headers:", cs!"Section", cs!"Headers:", cs!"[Nr]", cs!"Name", cs!"Type",
     cs!"Address", cs!"Off", cs!"Size", cs!"[", cs!"0]", cs!"NULL", cs!"0000", cs!"000", cs!"000", cs!"00", cs!"0", cs!"0",
     cs!"0", cs!"[", cs!"1]"], cs!".text", cs!"PROGBITS", 0xffff1000, 0x1000, 0xa0, (0, 2, 2)⟩,
   ⟨[cs!"00", cs!"AX", cs!"0", cs!"0", cs!"4096", cs!"[", cs!"2]", cs!".rela.text", cs!"RELA", cs!"0000", cs!"0100", cs!"0020",
     cs!"18", cs!"I", cs!"9", cs!"1", cs!"8", cs!"[10]"], cs!".bss", cs!"NOBITS", 0xffff2000, 0x2000, 0xb00, (0, 2, 1)⟩,
   ⟨[cs!"00", cs!"WA", cs!"0", cs!"0", cs!"64", cs!"[11]"], cs!".data-x", cs!"PROGBITS", 0xffff3000, 0x3000, 0x10, (0, 2, 2)⟩]

theorem sampleSections_ok : (∀ r ∈ sampleSecRows, r.WF) ∧
    (∀ w ∈ [cs!"00", cs!"WA", cs!"0", cs!"0", cs!"64", cs!"Key", cs!"to", cs!"Flags:"], w ∉ secTypes) ∧
    splitWs sampleSections = sampleSecRows.flatMap SecRow.words ++
      [cs!"00", cs!"WA", cs!"0", cs!"0", cs!"64", cs!"Key", cs!"to", cs!"Flags:"] := by
  refine ⟨?_, by decide +kernel, by decide +kernel⟩
  intro r h
  simp only [sampleSecRows, List.mem_cons, List.not_mem_nil, or_false] at h
  rcases h with rfl | rfl | rfl <;> exact ⟨⟨by simp, by decide +kernel⟩, by decide +kernel⟩

example : dget cs!".bss" (extractSections sampleSections) = some ⟨cs!".bss", 0xffff2000, 0x2000, 0xb00⟩ :=
  ((C87_lookup sampleSections sampleSecRows _ sampleSections_ok.1 sampleSections_ok.2.1 sampleSections_ok.2.2 _).1
    (by decide +kernel)).trans (by decide +kernel)

/-- C87 is false of the code: a listed PROGBITS section whose name has another character (`.data-x`) is not known. -/
theorem C87_sections_refuted : ∃ (out : Str) (rows : List SecRow) (after : List Str), (∀ r ∈ rows, r.WF) ∧
    (∀ w ∈ after, w ∉ secTypes) ∧ splitWs out = rows.flatMap SecRow.words ++ after ∧
    ∃ r ∈ rows, dget r.name (extractSections out) = none := by
  obtain ⟨h1, h2, h3⟩ := sampleSections_ok
  refine ⟨_, _, _, h1, h2, h3, _, List.mem_cons_of_mem _ (List.mem_cons_of_mem _ (List.mem_cons_self ..)), ?_⟩
  exact (C87_lookup sampleSections sampleSecRows _ h1 h2 h3 _).2 (by decide +kernel)

/-- C87: an image counts as having debug information exactly when a `.debug_line` row is listed. -/
theorem C87_debug_info (e : Elf) (out : Str) (rows : List SecRow) (after : List Str) (hr : ∀ r ∈ rows, r.WF)
    (ha : ∀ w ∈ after, w ∉ secTypes) (hout : splitWs out = rows.flatMap SecRow.words ++ after)
    (he : e.sections = extractSections out) : e.hasDebugInfo = true ↔ ∃ r ∈ rows, r.name = cs!".debug_line" := by
  unfold Elf.hasDebugInfo dmem
  rw [he, (C87_lookup out rows after hr ha hout _).1 (by decide +kernel), Option.isSome_map]
  cases hf : rows.filter fun r => decide (r.name = cs!".debug_line") with
  | nil =>
    rw [List.filter_eq_nil_iff] at hf
    simp only [List.getLast?_nil, Option.isSome_none, Bool.false_eq_true, false_iff]
    rintro ⟨r, h1, h2⟩
    exact hf r h1 (by simpa using h2)
  | cons r l =>
    have : r ∈ rows.filter fun r => decide (r.name = cs!".debug_line") := by rw [hf]; simp
    rw [List.mem_filter] at this
    simp only [List.getLast?_isSome, ne_eq, reduceCtorEq, not_false_eq_true, true_iff]
    exact ⟨r, this.1, by simpa using this.2⟩

end Verif
