import Verif.Lemmas.Popen
import Verif.Lemmas.Page
import Verif.Props.EndToEnd
/-! # Properties of the HTML page in a browser (C97) -/
set_option autoImplicit false

namespace Verif
open Spec

/-! ## C97 -/

/-- C97: the page written for a kernel. Its columns have the names of what is below them, and whatever is clicked, in whatever
order: nothing fails, and what is seen is what a table sorted by clicking should be (`Seen`), the first five columns being
sortable, the first one by number. -/
theorem C97_clicks (css js : Str) (k : KernelInfo) (tag : Str) (htag : versionTag k.version = .ok tag) (n : Nat)
    (hn : MaxArgs k.syscalls n) :
    ∃ (before header : Str) (rows : List Str) (after : Str), outputHtml true css js k = .ok (before ++ header ++ rows.flatten ++ after) ∧
      HeaderCells k.arch.numReg k.arch.argRegs n header ∧ rows.length = k.syscalls.length ∧
      (∀ (i : Nat) (sc : Syscall), k.syscalls[i]? = some sc → ∃ row, rows[i]? = some row ∧ HtmlRow sc row) ∧
      ∀ cs : List Click, ∃ p v, clicks (openPage header rows) cs = .ok p ∧
        SeenAll (LessIn k.syscalls header rows) 5 (firstView rows.length) cs v ∧ Shows (openPage header rows) p v := by
  have hrows : ∀ (i : Nat) (sc : Syscall), k.syscalls[i]? = some sc →
      ∃ row, (k.syscalls.map (htmlRow tag n))[i]? = some row ∧ HtmlRow sc row := fun i sc h =>
    ⟨htmlRow tag n sc, by simp [h], (reads_row tag n sc (hn.2 sc (List.mem_of_getElem? h))).1⟩
  refine ⟨htmlBefore css tag k.arch, htmlHeader k.arch n, k.syscalls.map (htmlRow tag n), htmlAfter js, ?_, ?_, by simp, hrows, ?_⟩
  · simp only [outputHtml, (maxArgs_spec _ _).2 hn, htag, bind, Except.bind, List.flatMap]
    rfl
  · refine ⟨_, _, cells_header k.arch n, ⟨?_, ?_⟩, by simp, ?_⟩
    · intro h; simp [numRegText, h]
    · intro r h hr
      simp only [numRegText, h, if_neg hr]
      rw [decodeRefs_plain cs!"Number" (by decide)]
      have : decodeRefs 0 (cs!"&nbsp;(" ++ htmlEscape r ++ cs!")") = cs!"&nbsp;(" ++ decodeRefs 0 (htmlEscape r ++ cs!")") := by
        simp [decodeRefs, List.isPrefixOf]
      rw [this, decodeRefs_escape]
      simp [decodeRefs]
    · intro i c hc
      simp only [List.getElem?_map] at hc
      cases hi : (List.range n)[i]? with
      | none => rw [hi] at hc; simp at hc
      | some x =>
        rw [hi] at hc
        have hx : x = i := by
          obtain ⟨h1, h2⟩ := List.getElem?_eq_some_iff.1 hi
          simpa using h2.symm
        subst hx
        simp only [Option.map_some, Option.some.injEq] at hc
        subst hc
        refine ⟨rfl, ?_⟩
        intro regs r h1 h2
        simp only [regAt, h1, h2, List.append_assoc]
        rw [decodeRefs_plain cs!"Arg " (by decide), decodeRefs_plain _ (digits_safe _).2.2, decodeRefs_plain cs!" (" (by decide), decodeRefs_escape]
        simp [decodeRefs]
  · intro cs
    have hne : k.syscalls ≠ [] := by
      obtain ⟨sc, h, -⟩ := hn.1
      intro e
      rw [e] at h
      simp at h
    obtain ⟨p, v, h1, h2, h3, -⟩ := page_clicks k.syscalls (htmlHeader k.arch n) (k.syscalls.map (htmlRow tag n)) _ _ (cells_header k.arch n)
      ⟨n, thTags_header k.arch n⟩ (by simp) hne hrows cs
    exact ⟨p, v, h1, h2, h3⟩

example : MaxArgs exKernel.syscalls 3 ∧ ∃ tag, versionTag exKernel.version = .ok tag :=
  ⟨(maxArgs_spec _ _).1 (by decide +kernel), _, rfl⟩

/-- C97: at any time all rows are there, once, and (if they were written in increasing order) in the order that is marked. -/
theorem C97_always_sorted (less : Nat → Nat → Nat → Prop) (n len : Nat) (cs : List Click) (v : View)
    (h : SeenAll less n (firstView len) cs v) (h0 : InOrder less 0 false (List.range len)) :
    v.order.Perm (List.range len) ∧ InOrder less v.col v.desc v.order := by
  have key : ∀ (u : View), SeenAll less n u cs v → u.order.Perm (List.range len) → InOrder less u.col u.desc u.order →
      v.order.Perm (List.range len) ∧ InOrder less v.col v.desc v.order := by
    intro u hu
    clear h
    induction hu with
    | nil v => exact fun h1 h2 => ⟨h1, h2⟩
    | cons hs _ ih =>
      intro h1 h2
      refine ih ?_ ?_
      · cases hs with
        | sort _ _ _ _ _ hp _ _ => exact hp.trans h1
        | plain _ _ => exact h1
        | light _ _ _ => exact h1
        | beside _ _ => exact h1
      · cases hs with
        | sort _ _ _ _ _ _ ho _ => exact ho
        | plain _ _ => exact h2
        | light _ _ _ => exact h2
        | beside _ _ => exact h2
  exact key _ h (.refl _) h0

example : InOrder (LessIn exKernel.syscalls [] []) 0 false (List.range exKernel.syscalls.length) := by
  have : ∀ i j : Nat, i < j → ¬ LessIn exKernel.syscalls [] [] 0 j i := by
    rintro i j hij ⟨a, b, ha, hb, hlt⟩
    have key : exKernel.syscalls.Pairwise fun x y => x.number ≤ y.number := by decide +kernel
    have := (List.pairwise_iff_getElem.1 key) i j (List.getElem?_eq_some_iff.1 hb).1 (List.getElem?_eq_some_iff.1 ha).1 hij
    rw [(List.getElem?_eq_some_iff.1 hb).2, (List.getElem?_eq_some_iff.1 ha).2] at this
    omega
  exact (List.pairwise_lt_range).imp fun h => this _ _ h

/-- C97: the order in which the rows were written, if increasing, is seen whenever the first column is marked as ascending. -/
theorem C97_back (less : Nat → Nat → Nat → Prop) (n len : Nat) (cs : List Click) (v : View)
    (h : SeenAll less n (firstView len) cs v) (h0 : ∀ i j, i < j → j < len → less 0 i j ∧ ¬ less 0 j i)
    (hc : v.col = 0) (hd : v.desc = false) : v.order = List.range len := by
  have hin : InOrder less 0 false (List.range len) := by
    refine List.pairwise_iff_getElem.2 fun i j hi hj hij => ?_
    simp only [List.getElem_range]
    exact (h0 i j hij (by simpa using hj)).2
  obtain ⟨hp, ho⟩ := C97_always_sorted less n len cs v h hin
  rw [hc, hd] at ho
  refine hp.eq_of_pairwise (le := fun i j : Nat => i ≤ j) ?_ ?_ ?_
  · intro a b _ _ h1 h2; omega
  · refine List.Pairwise.imp_of_mem ?_ ho
    intro i j hi hj hij
    simp only [Bool.false_eq_true, if_false] at hij
    by_cases hlt : j < i
    · exact absurd (h0 j i hlt (List.mem_range.1 (hp.mem_iff.1 hi))).1 hij
    · omega
  · exact (List.pairwise_lt_range).imp fun h => Nat.le_of_lt h

/-- clicks on "Name", "Number" and the first row of a page with two rows: the hypotheses hold -/
example : ∃ v, SeenAll (fun _ i j => i < j) 5 (firstView 2) [.header 1, .header 0, .row 0] v ∧
    (∀ i j : Nat, i < j → j < 2 → i < j ∧ ¬ j < i) ∧ v.col = 0 ∧ v.desc = false ∧ v.lit 0 = true ∧ v.lit 1 = false := by
  refine ⟨_, .cons (.sort _ 1 false [0, 1] (by decide) (by simp [firstView]) (by decide) (by simp [InOrder]) ?_)
    (.cons (.sort _ 0 false [0, 1] (by decide) (by simp) (by decide) (by simp [InOrder]) ?_) (.cons (.light _ 0 0 rfl) (.nil _))),
    fun i j h _ => ⟨h, by omega⟩, rfl, rfl, rfl, rfl⟩
  · exact fun i j h _ _ => h
  · exact fun i j h _ _ => h

/-- C97: a click on a header cell of the first five makes its column the marked one; a second click in a row turns the order. -/
theorem C97_direction (less : Nat → Nat → Nat → Prop) (n : Nat) (v v' : View) (k : Nat) (h : Seen less n v (.header k) v') (hk : k < n) :
    v'.col = k ∧ v'.lit = v.lit ∧ (v.col ≠ k → v'.desc = false) ∧ (v.col = k → v'.desc = !v.desc) := by
  cases h with
  | sort _ desc _ _ hd _ _ _ =>
    refine ⟨rfl, rfl, fun hne => ?_, fun he => ?_⟩
    · cases desc with
      | false => rfl
      | true => exact absurd (hd.1 rfl).1 hne
    · cases hv : v.desc with
      | false => exact hd.2 ⟨he, hv⟩
      | true =>
        cases desc with
        | false => rfl
        | true => rw [(hd.1 rfl).2] at hv; cases hv
  | plain _ h => omega

/-- C97, the program: a successful analysis with `-f html` printed a page that behaves so. -/
theorem C97_run (w : MWorld) (hw : Pythonic w) (help : Str) (args : Args) (s : MState)
    (hf : args.format = .html) (h0 : (main w help args s).1 = .ok 0) (hb : ¬ BuildMode args) (hh : ¬ AsksForHelp args) :
    ∃ (p : Path) (e : Elf) (a0 : Arch) (ver : Ver) (hist : List Run) (entries : List (Nat × Nat)) (ref : Option Symbol)
      (code : Option Bytes) (cands located scs : List Syscall) (n : Nat) (before header : Str) (rows : List Str) (after : Str),
      Analysed w args p e a0 ver hist entries ref code cands located scs ∧ MaxArgs scs n ∧
      (main w help args s).2.out = some (before ++ header ++ rows.flatten ++ after) ∧
      HeaderCells (a0.adjustAbi e).numReg (a0.adjustAbi e).argRegs n header ∧ rows.length = scs.length ∧
      (∀ (i : Nat) (sc : Syscall), scs[i]? = some sc → ∃ row, rows[i]? = some row ∧ HtmlRow sc row) ∧
      ∀ cs : List Click, ∃ page v, clicks (openPage header rows) cs = .ok page ∧
        SeenAll (LessIn scs header rows) 5 (firstView rows.length) cs v ∧ Shows (openPage header rows) page v := by
  obtain ⟨p, e, a0, ver, hist, entries, ref, code, cands, located, scs, text, hA, ht, hout⟩ := C88_run w hw help args s h0 hb hh
  rw [hf] at ht
  simp only [outputSyscalls] at ht
  have hji : w.jinja = true := by
    cases h : w.jinja with
    | true => rfl
    | false => rw [h] at ht; simp [outputHtml] at ht
  rw [hji] at ht
  have hm : ∃ n, maxArgs scs = .ok n := by
    cases h : maxArgs scs with
    | ok n => exact ⟨n, rfl⟩
    | error x => simp [outputHtml, h, bind, Except.bind] at ht
  obtain ⟨n, hm⟩ := hm
  have htag : ∃ tag, versionTag ver = .ok tag := by
    cases h : versionTag ver with
    | ok t => exact ⟨t, rfl⟩
    | error x => simp [outputHtml, hm, h, bind, Except.bind] at ht
  obtain ⟨tag, htag⟩ := htag
  have hn := (maxArgs_spec _ _).1 hm
  obtain ⟨before, header, rows, after, t1, t2, t3, t4, t5⟩ := C97_clicks w.css w.js ⟨ver, cs!"vmlinux", a0.adjustAbi e, scs⟩ tag htag n hn
  rw [t1] at ht
  cases ht
  exact ⟨p, e, a0, ver, hist, entries, ref, code, cands, located, scs, n, before, header, rows, after, hA, hn, hout, t2, t3, t4, t5⟩

/-! Texts -/

theorem not_surrogate (c : Char) : ¬ (0xd800 ≤ c.toNat ∧ c.toNat < 0xe000) := by
  have h := c.valid
  have : c.toNat = c.val.toNat := rfl
  rw [this]
  simp only [UInt32.isValidChar, Nat.isValidChar] at h
  omega

theorem ofUnits_units (s : Str) : ofUnits (utf16Units s) = some s := by
  induction s with
  | nil => rfl
  | cons c s ih =>
    have hs := not_surrogate c
    have hm := toNat_lt c
    unfold utf16Units at ih ⊢
    rw [List.flatMap_cons]
    by_cases h : c.toNat < 0x10000
    · rw [if_pos h, List.singleton_append, ofUnits.eq_def]
      simp only
      rw [if_neg (by omega), if_neg (by omega), ih, ofNat_of_toNat]; rfl
    · rw [if_neg h]
      simp only [List.cons_append, List.nil_append]
      rw [ofUnits.eq_def]
      simp only
      rw [if_pos (by omega), if_pos (by omega), ih]
      have : 65536 + 1024 * (55296 + (c.toNat - 65536) / 1024 - 55296) + (56320 + (c.toNat - 65536) % 1024 - 56320) = c.toNat := by omega
      rw [this, ofNat_of_toNat]; rfl

theorem units_plain (s : Str) (h : ∀ c ∈ s, c.toNat < 0x10000) : utf16Units s = s.map Char.toNat := by
  induction s with
  | nil => rfl
  | cons c s ih =>
    unfold utf16Units at ih ⊢
    rw [List.flatMap_cons, if_pos (h c (by simp)), ih fun d hd => h d (by simp [hd])]; rfl

theorem map_toNat_lt (s t : Str) : s.map Char.toNat < t.map Char.toNat ↔ s < t := by
  induction s generalizing t with
  | nil => cases t <;> simp
  | cons c s ih =>
    cases t with
    | nil => simp
    | cons d t =>
      simp only [List.map_cons, List.cons_lt_cons_iff, ih]
      have : c.toNat = d.toNat ↔ c = d := ⟨fun h => by rw [← ofNat_of_toNat c, h, ofNat_of_toNat], fun h => by rw [h]⟩
      rw [this]
      exact Iff.rfl

/-- C97: the texts of a column are compared by their UTF-16 code units. -/
theorem C97_text_order (s t : Str) :
    ofUnits (utf16Units s) = some s ∧ ofUnits (utf16Units t) = some t ∧ (utf16Units s < utf16Units t ∨ s = t ∨ utf16Units t < utf16Units s) ∧
    ((∀ c ∈ s ++ t, c.toNat < 0x10000) → (utf16Units s < utf16Units t ↔ s < t)) := by
  refine ⟨ofUnits_units s, ofUnits_units t, ?_, fun h => ?_⟩
  · by_cases h1 : utf16Units s < utf16Units t
    · exact .inl h1
    by_cases h2 : utf16Units t < utf16Units s
    · exact .inr (.inr h2)
    · have := List.le_antisymm (List.not_lt.1 h2) (List.not_lt.1 h1)
      refine .inr (.inl (Option.some.inj ?_))
      rw [← ofUnits_units s, this, ofUnits_units t]
  · rw [units_plain s fun c hc => h c (by simp [hc]), units_plain t fun c hc => h c (by simp [hc]), map_toNat_lt]

/-- a text outside the plane -/
example : utf16Units cs!"😀" = [0xd83d, 0xde00] ∧ utf16Units cs!"😀" < utf16Units cs!"\uff5e" ∧ ¬ cs!"😀" < cs!"\uff5e" := by decide

end Verif
