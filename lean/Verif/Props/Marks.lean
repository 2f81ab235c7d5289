import Verif.Lemmas.Marks
import Verif.Props.EndToEnd
/-! # Marks, links and headings of the HTML page (C105) -/
set_option autoImplicit false

namespace Verif
open Spec

/-- every syscall has exactly one standing -/
theorem C105_standing (sc : Syscall) : ∃ s, StandingOf sc s ∧ ∀ s', StandingOf sc s' → s' = s := by
  obtain ⟨s, hs⟩ := standing_exists sc
  exact ⟨s, hs, fun s' h => standing_unique h hs⟩

/-- C105: the page, for every kernel and list of syscalls with a known signature: headings and rows with their marks and links.
The style sheet is taken to contain no tags. -/
theorem C105_page (css js : Str) (hcss : '<' ∉ css) (k : KernelInfo) (tag : Str) (htag : versionTag k.version = .ok tag) (n : Nat)
    (hn : MaxArgs k.syscalls n) :
    ∃ (before header : Str) (rows : List Str) (after : Str), outputHtml true css js k = .ok (before ++ header ++ rows.flatten ++ after) ∧
      Headings tag k.arch before ∧ rows.length = k.syscalls.length ∧
      ∀ (i : Nat) (sc : Syscall), k.syscalls[i]? = some sc → ∃ row, rows[i]? = some row ∧ HtmlRow sc row ∧ RowMarks tag sc row := by
  refine ⟨htmlBefore css tag k.arch, htmlHeader k.arch n, k.syscalls.map (htmlRow tag n), htmlAfter js, ?_, ⟨?_, ?_, ?_⟩, by simp, ?_⟩
  · simp only [outputHtml, (maxArgs_spec _ _).2 hn, htag, bind, Except.bind, List.flatMap]
    rfl
  · rw [hasTexts_before css tag k.arch hcss _ (.inl rfl)]
    rw [if_pos rfl, if_neg (by decide), if_neg (by decide)]
    rfl
  · rw [hasTexts_before css tag k.arch hcss _ (.inr (.inl rfl))]
    rw [if_neg (by decide), if_pos rfl, if_neg (by decide)]
    rfl
  · rw [hasTexts_before css tag k.arch hcss _ (.inr (.inr rfl))]
    rw [if_neg (by decide), if_neg (by decide), if_pos rfl]
    rfl
  · intro i sc h
    exact ⟨htmlRow tag n sc, by simp [h], (reads_row tag n sc (hn.2 sc (List.mem_of_getElem? h))).1, hasTags_row tag n sc⟩

/-- C105: a location cell without a mark is one the program stands for: found by the debug information and confirmed. All
others are marked. -/
theorem C105_unmarked (tag : Str) (sc : Syscall) (row : Str) (h : RowMarks tag sc row) :
    ∃ loc, (cellTags row)[4]? = some loc ∧
      (attrOf cs!"class" loc = none ↔ sc.goodLocation = true ∧ sc.greppedLocation = false ∧ (∃ f, sc.file = some f) ∧ ∃ l, sc.line = some l) := by
  obtain ⟨num, hex, name, sym, loc, kconf, sig, ht, -, -, -, hm, -⟩ := h
  refine ⟨loc, by rw [ht]; rfl, ?_⟩
  obtain ⟨s, hs⟩ := standing_exists sc
  have h1 := congrArg Prod.fst (hm s hs)
  simp only at h1
  rw [h1]
  cases hs with
  | unknown hf => simp [Standing.mark, hf]
  | noLine f hf hl => simp [Standing.mark, hf, hl]
  | doubtful f l hf hl hg => simp [Standing.mark, hf, hl, hg]
  | searched f l hf hl hg hq => simp [Standing.mark, hf, hl, hg, hq]
  | good f l hf hl hg hq => simp [Standing.mark, hf, hl, hg, hq]

/-- C105, the program: a successful analysis with `-f html` printed such a page. -/
theorem C105_run (w : MWorld) (hw : Pythonic w) (hcss : '<' ∉ w.css) (help : Str) (args : Args) (s : MState)
    (hf : args.format = .html) (h0 : (main w help args s).1 = .ok 0) (hb : ¬ BuildMode args) (hh : ¬ AsksForHelp args) :
    ∃ (p : Path) (e : Elf) (a0 : Arch) (ver : Ver) (hist : List Run) (entries : List (Nat × Nat)) (ref : Option Symbol)
      (code : Option Bytes) (cands located scs : List Syscall) (tag before header : Str) (rows : List Str) (after : Str),
      Analysed w args p e a0 ver hist entries ref code cands located scs ∧ versionTag ver = .ok tag ∧
      (main w help args s).2.out = some (before ++ header ++ rows.flatten ++ after) ∧
      Headings tag (a0.adjustAbi e) before ∧ rows.length = scs.length ∧
      ∀ (i : Nat) (sc : Syscall), scs[i]? = some sc → ∃ row, rows[i]? = some row ∧ HtmlRow sc row ∧ RowMarks tag sc row := by
  obtain ⟨p, e, a0, ver, hist, entries, ref, code, cands, located, scs, text, hA, ht, hout⟩ := C88_run w hw help args s h0 hb hh
  rw [hf] at ht
  simp only [outputSyscalls] at ht
  have hji : w.jinja = true := by
    cases h : w.jinja with
    | true => rfl
    | false => rw [h] at ht; simp [outputHtml] at ht
  rw [hji] at ht
  have hm : ∃ n, maxArgs scs = .ok n := by
    cases h : maxArgs scs with
    | ok n => exact ⟨n, rfl⟩
    | error x => simp [outputHtml, h, bind, Except.bind] at ht
  obtain ⟨n, hm⟩ := hm
  have htag : ∃ tag, versionTag ver = .ok tag := by
    cases h : versionTag ver with
    | ok t => exact ⟨t, rfl⟩
    | error x => simp [outputHtml, hm, h, bind, Except.bind] at ht
  obtain ⟨tag, htag⟩ := htag
  have hn := (maxArgs_spec _ _).1 hm
  obtain ⟨before, header, rows, after, t1, t2, t3, t4⟩ := C105_page w.css w.js hcss ⟨ver, cs!"vmlinux", a0.adjustAbi e, scs⟩ tag htag n hn
  rw [t1] at ht
  cases ht
  exact ⟨p, e, a0, ver, hist, entries, ref, code, cands, located, scs, tag, before, header, rows, after, hA, htag, hout, t2, t3, t4⟩

/-- the small image with sources and HTML output meets the hypotheses -/
example : Pythonic tinySources ∧ '<' ∉ tinySources.css ∧
    (main tinySources [] { kdir := some cs!"/k", vmlinux := some cs!"vmlinux", format := .html } {}).1 = .ok 0 ∧
    ¬ BuildMode { kdir := some cs!"/k", vmlinux := some cs!"vmlinux", format := .html } ∧
    ¬ AsksForHelp { kdir := some cs!"/k", vmlinux := some cs!"vmlinux", format := .html } := by
  refine ⟨⟨?_, ?_⟩, by decide, by decide +kernel, by simp [BuildMode], by simp [AsksForHelp]⟩
  · intro l; exact .refl _
  · exact ⟨fun _ => .refl _, fun _ => .refl _⟩

/-- a syscall found by searching, with a path that needs escaping -/
def markedSyscall : Syscall :=
  { exVoid with file := some ⟨false, [cs!"fs", cs!"a&b.c"]⟩, line := some 12, goodLocation := true, greppedLocation := true, esoteric := true }

/-- how its row is marked, and where its link leads -/
example : StandingOf markedSyscall .searched ∧
    linksOf (htmlRow cs!"v6.1" 2 markedSyscall) = [cs!"https://elixir.bootlin.com/linux/v6.1/source/fs/a&b.c#L12"] ∧
    (cellTags (htmlRow cs!"v6.1" 2 markedSyscall)).map (attrOf cs!"class") =
      [none, none, some cs!"esoteric", none, some cs!"bad", none, none] :=
  ⟨.searched _ _ rfl rfl rfl rfl, by decide +kernel, by decide +kernel⟩

end Verif
