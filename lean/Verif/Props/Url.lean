import Verif.Props.Marks
import Verif.Lemmas.Str
import Verif.Lemmas.Py
import Verif.Spec.Url
/-! # Where the links of the HTML page lead (C130) -/
set_option autoImplicit false

namespace Verif
open Spec

theorem cutAt_none (p : Char → Bool) : ∀ s : Str, (∀ c ∈ s, p c = false) → cutAt p s = (s, none)
  | [], _ => rfl
  | c :: s, h => by
    rw [cutAt, h c (List.mem_cons_self ..), cutAt_none p s fun x hx => h x (List.mem_cons_of_mem _ hx)]
    rfl

theorem cutAt_some (p : Char → Bool) (x : Char) (b : Str) (hx : p x = true) :
    ∀ a : Str, (∀ c ∈ a, p c = false) → cutAt p (a ++ x :: b) = (a, some b)
  | [], _ => by simp [cutAt, hx]
  | c :: s, h => by
    rw [List.cons_append, cutAt, h c (List.mem_cons_self ..), cutAt_some p x b hx s fun x hx => h x (List.mem_cons_of_mem _ hx)]
    rfl

theorem urlClean_id {s : Str} (h : ∀ c ∈ s, 32 < c.toNat) : urlClean s = s := by
  have dw : ∀ t : Str, (∀ c ∈ t, 32 < c.toNat) → t.dropWhile (fun c : Char => decide (c.toNat ≤ 32)) = t := by
    intro t ht
    cases t with
    | nil => rfl
    | cons c t =>
      rw [List.dropWhile_cons_of_neg]
      have := ht c (List.mem_cons_self ..)
      simp only [decide_eq_true_eq]
      omega
  unfold urlClean
  simp only
  rw [dw s h, dw s.reverse (fun c hc => h c (List.mem_reverse.1 hc)), List.reverse_reverse, List.filter_eq_self]
  intro c hc
  have h1 := h c hc
  have : c ≠ '\t' ∧ c ≠ '\n' ∧ c ≠ '\r' := by
    refine ⟨?_, ?_, ?_⟩ <;> rintro rfl <;> exact absurd h1 (by decide)
  simp [this]

theorem plain_not_dots {s : Str} (h : PlainPart s) : isDot s = false ∧ isDots s = false := by
  obtain ⟨h1, h2, h3⟩ := h
  have hp : '%' ∉ s := fun hm => (h3 _ hm).2.2.2.1 rfl
  have dot : ∀ t : Str, '%' ∉ t → isDot t = true → t = cs!"." := by
    intro t ht hd
    simp only [isDot, Bool.or_eq_true, beq_iff_eq] at hd
    rcases hd with (hd | hd) | hd
    · exact hd
    · subst hd; simp at ht
    · subst hd; simp at ht
  constructor
  · cases hd : isDot s with
    | false => rfl
    | true => exact absurd (dot s hp hd) h1
  · cases hd : isDots s with
    | false => rfl
    | true =>
      exfalso
      unfold isDots at hd
      split at hd
      · rename_i t
        have := dot t (fun hm => hp (List.mem_cons_of_mem _ hm)) hd
        subst this
        exact h2 rfl
      · simp at hp
      · simp at hp
      · cases hd

theorem unpercent_id : ∀ s : Str, '%' ∉ s → unpercent s = s
  | [], _ => rfl
  | c :: s, h => by
    have hc : c ≠ '%' := fun e => h (e ▸ List.mem_cons_self ..)
    have := unpercent_id s fun hm => h (List.mem_cons_of_mem _ hm)
    unfold unpercent
    split
    · rename_i heq; simp only [List.cons.injEq] at heq; exact absurd heq.1 hc
    · rename_i heq; simp only [List.cons.injEq] at heq; rw [← heq.1, ← heq.2, this]
    · rename_i heq; cases heq

theorem resolve_plain : ∀ (l acc : List Str), (∀ s ∈ l, PlainPart s) → resolve acc l = acc.reverse ++ l
  | [], acc, _ => by simp [resolve]
  | s :: l, acc, h => by
    obtain ⟨h1, h2⟩ := plain_not_dots (h s (List.mem_cons_self ..))
    rw [resolve, h1, h2, if_neg (by decide), if_neg (by decide), resolve_plain l _ fun x hx => h x (List.mem_cons_of_mem _ hx)]
    simp

theorem mem_joinWith {sep : Str} {c : Char} : ∀ (l : List Str), c ∈ joinWith sep l → c ∈ sep ∨ ∃ s ∈ l, c ∈ s
  | [], h => by cases h
  | [w], h => .inr ⟨w, List.mem_cons_self .., h⟩
  | w :: v :: ws, h => by
    rw [joinWith, List.mem_append, List.mem_append] at h
    · rcases h with (h | h) | h
      · exact .inr ⟨w, List.mem_cons_self .., h⟩
      · exact .inl h
      · rcases mem_joinWith (v :: ws) h with h | ⟨s, hs, h⟩
        · exact .inl h
        · exact .inr ⟨s, List.mem_cons_of_mem _ hs, h⟩
    · exact fun e => by cases e

/-- what follows the path -/
def hashText : Option Str → Str
  | none => []
  | some t => '#' :: t

/-- reading an address made of plain names -/
theorem readUrl_plain (parts : List Str) (hne : parts ≠ []) (hp : ∀ s ∈ parts, PlainPart s) (frag : Option Str)
    (hf : ∀ t, frag = some t → ∀ c ∈ t, 32 < c.toNat) :
    readUrl (cs!"https://elixir.bootlin.com/" ++ (joinWith cs!"/" parts ++ hashText frag)) =
      some ⟨cs!"elixir.bootlin.com", parts, none, frag⟩ := by
  have hj : ∀ c ∈ joinWith cs!"/" parts, 32 < c.toNat ∧ c ≠ '#' ∧ c ≠ '?' ∧ c ≠ '%' ∧ c ≠ '\\' := by
    intro c hc
    rcases mem_joinWith _ hc with hc | ⟨s, hs, hc⟩
    · simp only [List.mem_singleton] at hc
      subst hc
      decide
    · have := (hp s hs).2.2 c hc
      exact ⟨this.1, this.2.1, this.2.2.1, this.2.2.2.1, this.2.2.2.2.2⟩
  have hhost : ∀ c ∈ cs!"elixir.bootlin.com", 32 < c.toNat ∧ c ≠ '#' ∧ c ≠ '?' ∧ c ≠ '%' ∧ c ≠ '\\' ∧ c ≠ '/' := by decide
  have hclean : urlClean (cs!"https://elixir.bootlin.com/" ++ (joinWith cs!"/" parts ++ hashText frag)) =
      cs!"https://" ++ (cs!"elixir.bootlin.com" ++ '/' :: (joinWith cs!"/" parts ++ hashText frag)) := by
    refine (urlClean_id ?_).trans rfl
    intro c hc
    rcases List.mem_append.1 hc with hc | hc
    · exact (by decide : ∀ c ∈ cs!"https://elixir.bootlin.com/", 32 < c.toNat) c hc
    · rcases List.mem_append.1 hc with hc | hc
      · exact (hj c hc).1
      · cases frag with
        | none => cases hc
        | some t =>
          rcases List.mem_cons.1 hc with rfl | hc
          · decide
          · exact hf t rfl c hc
  have hbody : ∀ c ∈ cs!"elixir.bootlin.com" ++ '/' :: joinWith cs!"/" parts, c ≠ '#' ∧ c ≠ '?' ∧ c ≠ '\\' := by
    intro c hc
    rcases List.mem_append.1 hc with hc | hc
    · have := hhost c hc; exact ⟨this.2.1, this.2.2.1, this.2.2.2.2.1⟩
    · rcases List.mem_cons.1 hc with rfl | hc
      · decide
      · have := hj c hc; exact ⟨this.2.1, this.2.2.1, this.2.2.2.2⟩
  have h1 : cutAt (· == '#') (cs!"elixir.bootlin.com" ++ '/' :: (joinWith cs!"/" parts ++ hashText frag)) =
      (cs!"elixir.bootlin.com" ++ '/' :: joinWith cs!"/" parts, frag) := by
    cases frag with
    | none =>
      simp only [hashText, List.append_nil]
      exact cutAt_none _ _ fun c hc => beq_eq_false_iff_ne.2 (hbody c hc).1
    | some t =>
      have := cutAt_some (· == '#') '#' t rfl (cs!"elixir.bootlin.com" ++ '/' :: joinWith cs!"/" parts)
        fun c hc => beq_eq_false_iff_ne.2 (hbody c hc).1
      rw [List.append_assoc, List.cons_append] at this
      exact this
  have h2 := cutAt_none (· == '?') (cs!"elixir.bootlin.com" ++ '/' :: joinWith cs!"/" parts)
    fun c hc => beq_eq_false_iff_ne.2 (hbody c hc).2.1
  have h3 : (cs!"elixir.bootlin.com" ++ '/' :: joinWith cs!"/" parts).map (fun c => if c = '\\' then '/' else c) =
      cs!"elixir.bootlin.com" ++ '/' :: joinWith cs!"/" parts := by
    refine (List.map_congr_left fun c hc => ?_).trans (List.map_id _)
    exact if_neg (hbody c hc).2.2
  have h4 := cutAt_some (· == '/') '/' (joinWith cs!"/" parts) rfl cs!"elixir.bootlin.com" (by decide)
  have h5 : splitChar '/' (joinWith cs!"/" parts) = parts := splitChar_join '/' parts hne fun s hs hm => ((hp s hs).2.2 _ hm).2.2.2.2.1 rfl
  have h6 : (resolve [] parts).map unpercent = parts := by
    rw [resolve_plain parts [] hp, List.reverse_nil, List.nil_append]
    refine (List.map_congr_left fun s hs => ?_).trans (List.map_id _)
    exact unpercent_id s fun hm => ((hp s hs).2.2 _ hm).2.2.2.1 rfl
  unfold readUrl
  simp only [hclean]
  have hpre : cs!"https://".isPrefixOf (cs!"https://" ++ (cs!"elixir.bootlin.com" ++ '/' :: (joinWith cs!"/" parts ++ hashText frag))) = true := by
    rw [List.isPrefixOf_iff_prefix]; exact List.prefix_append _ _
  have hdrop : (cs!"https://" ++ (cs!"elixir.bootlin.com" ++ '/' :: (joinWith cs!"/" parts ++ hashText frag))).drop 8 =
      cs!"elixir.bootlin.com" ++ '/' :: (joinWith cs!"/" parts ++ hashText frag) := rfl
  rw [if_pos hpre, hdrop, h1]
  simp only
  rw [h2]
  simp only
  rw [h3, h4]
  simp only
  rw [h5, h6]

theorem natRepr_visible (n : Nat) : ∀ c ∈ natRepr n, 32 < c.toNat ∧ c ≠ '#' ∧ c ≠ '?' ∧ c ≠ '%' ∧ c ≠ '/' ∧ c ≠ '\\' := by
  intro c hc
  have h := natRepr_all_digits n c hc
  have h0 : 48 ≤ c.toNat ∧ c.toNat ≤ 57 := by
    simp only [isDigit, Bool.and_eq_true, decide_eq_true_eq] at h
    exact ⟨h.1, h.2⟩
  refine ⟨by omega, ?_, ?_, ?_, ?_, ?_⟩ <;> rintro rfl <;> revert h0 <;> decide

theorem joinWith_more (sep w : Str) (l : List Str) (h : l ≠ []) : joinWith sep (w :: l) = w ++ sep ++ joinWith sep l := by
  cases l with
  | nil => exact absurd rfl h
  | cons a l => rfl

/-- the tag of a version is a plain name -/
theorem versionTag_plain {v : Ver} {tag : Str} (h : versionTag v = .ok tag) : PlainPart tag := by
  have dot : ∀ c ∈ cs!".", 32 < c.toNat ∧ c ≠ '#' ∧ c ≠ '?' ∧ c ≠ '%' ∧ c ≠ '/' ∧ c ≠ '\\' := by decide
  have vee : ∀ c ∈ cs!"v", 32 < c.toNat ∧ c ≠ '#' ∧ c ≠ '?' ∧ c ≠ '%' ∧ c ≠ '/' ∧ c ≠ '\\' := by decide
  unfold versionTag at h
  split at h
  · rename_i a b c
    split at h <;> cases h <;> refine ⟨fun e => (by cases e), fun e => (by cases e), fun x hx => ?_⟩
    · simp only [List.mem_append] at hx
      rcases hx with ((hx | hx) | hx) | hx
      exacts [vee x hx, natRepr_visible _ x hx, dot x hx, natRepr_visible _ x hx]
    · simp only [List.mem_append] at hx
      rcases hx with ((((hx | hx) | hx) | hx) | hx) | hx
      exacts [vee x hx, natRepr_visible _ x hx, dot x hx, natRepr_visible _ x hx, dot x hx, natRepr_visible _ x hx]
  · cases h

/-- the address built by the template leads to the file and line, if the names are plain -/
theorem leads_plain (tag : Str) (f : Path) (line : Option Nat) (ht : PlainPart tag) (ha : f.abs = false) (hf : PlainFile f) :
    LeadsTo (cs!"https://elixir.bootlin.com/linux/" ++ tag ++ cs!"/source/" ++ f.str ++ match line with
      | none => []
      | some l => cs!"#L" ++ natRepr l) tag f line := by
  have hs : f.str = joinWith cs!"/" f.parts := by
    unfold Path.str
    rw [if_neg (by rw [ha]; decide), if_neg hf.1]
  have key := readUrl_plain ([cs!"linux", tag, cs!"source"] ++ f.parts) (fun e => by cases e)
    (fun s hs => by
      rcases List.mem_append.1 hs with hs | hs
      · simp only [List.mem_cons, List.not_mem_nil, or_false] at hs
        rcases hs with rfl | rfl | rfl
        · refine ⟨by decide, by decide, by decide⟩
        · exact ht
        · refine ⟨by decide, by decide, by decide⟩
      · exact hf.2 s hs) (line.map fun l => 'L' :: natRepr l)
    (fun t e => by
      cases line with
      | none => exact absurd e (by simp)
      | some l =>
        simp only [Option.map_some, Option.some.injEq] at e
        subst e
        intro c hc
        rcases List.mem_cons.1 hc with rfl | hc
        · decide
        · exact (natRepr_visible l c hc).1)
  have e : joinWith cs!"/" ([cs!"linux", tag, cs!"source"] ++ f.parts) =
      cs!"linux" ++ cs!"/" ++ (tag ++ cs!"/" ++ (cs!"source" ++ cs!"/" ++ joinWith cs!"/" f.parts)) := by
    show joinWith cs!"/" (cs!"linux" :: tag :: cs!"source" :: f.parts) = _
    rw [joinWith_more _ _ _ (List.cons_ne_nil _ _), joinWith_more _ _ _ (List.cons_ne_nil _ _), joinWith_more _ _ _ hf.1]
  rw [e] at key
  unfold LeadsTo
  rw [← key, hs]
  refine congrArg readUrl ?_
  cases line <;> simp [hashText]

/-- **C130**: in the row of a syscall there is a link exactly if the file is told relative to the sources, and it leads there: to the
version of the kernel, the file and the line. (What is missing: names with spaces or characters that mean something in addresses.) -/
theorem C130_link_partial (tag : Str) (sc : Syscall) (row : Str) (h : RowMarks tag sc row) (ht : PlainPart tag)
    (hf : ∀ f, sc.file = some f → f.abs = false → PlainFile f) :
    ((sc.file = none ∨ ∃ f, sc.file = some f ∧ f.abs = true) ∧ linksOf row = []) ∨
    ∃ f link, sc.file = some f ∧ f.abs = false ∧ linksOf row = [link] ∧ LeadsTo link tag f sc.line := by
  obtain ⟨num, hex, name, sym, loc, kconf, sig, -, -, -, -, -, -, h1, h2, h3⟩ := h
  cases hfile : sc.file with
  | none => exact .inl ⟨.inl rfl, h1 hfile⟩
  | some f =>
    cases ha : f.abs with
    | true => exact .inl ⟨.inr ⟨f, rfl, ha⟩, h2 f hfile ha⟩
    | false =>
      right
      have hl := leads_plain tag f sc.line ht ha (hf f hfile ha)
      obtain ⟨h4, h5⟩ := h3 f hfile ha
      refine ⟨f, _, rfl, ha, ?_, hl⟩
      cases hline : sc.line with
      | none => rw [h4 hline]; simp
      | some l => rw [h5 l hline]; simp

/-- **C130**, the program: so it is on the page printed by a successful analysis. -/
theorem C130_run_partial (w : MWorld) (hw : Pythonic w) (hcss : '<' ∉ w.css) (help : Str) (args : Args) (s : MState)
    (hf : args.format = .html) (h0 : (main w help args s).1 = .ok 0) (hb : ¬ BuildMode args) (hh : ¬ AsksForHelp args) :
    ∃ (p : Path) (e : Elf) (a0 : Arch) (ver : Ver) (hist : List Run) (entries : List (Nat × Nat)) (ref : Option Symbol)
      (code : Option Bytes) (cands located scs : List Syscall) (tag before header : Str) (rows : List Str) (after : Str),
      Analysed w args p e a0 ver hist entries ref code cands located scs ∧ versionTag ver = .ok tag ∧
      (main w help args s).2.out = some (before ++ header ++ rows.flatten ++ after) ∧ rows.length = scs.length ∧
      ∀ (i : Nat) (sc : Syscall), scs[i]? = some sc → (∀ f, sc.file = some f → f.abs = false → PlainFile f) → ∃ row, rows[i]? = some row ∧
        (((sc.file = none ∨ ∃ f, sc.file = some f ∧ f.abs = true) ∧ linksOf row = []) ∨
        ∃ f link, sc.file = some f ∧ f.abs = false ∧ linksOf row = [link] ∧ LeadsTo link tag f sc.line) := by
  obtain ⟨p, e, a0, ver, hist, entries, ref, code, cands, located, scs, tag, before, header, rows, after, hA, htag, hout, -, hlen, hrows⟩ :=
    C105_run w hw hcss help args s hf h0 hb hh
  refine ⟨p, e, a0, ver, hist, entries, ref, code, cands, located, scs, tag, before, header, rows, after, hA, htag, hout, hlen, ?_⟩
  intro i sc hi hp
  obtain ⟨row, hr, -, hm⟩ := hrows i sc hi
  exact ⟨row, hr, C130_link_partial tag sc row hm (versionTag_plain htag) hp⟩

/-- a syscall in a certain file -/
def inFile (parts : List Str) : Syscall := { exVoid with file := some ⟨false, parts⟩, line := some 12, goodLocation := true }

/-- **C130**, what is false: addresses are not encoded. A file with a percent sign is linked to another file, one with a hash to another
place of another file, and one outside of the sources to something else. -/
theorem C130_refuted (n : Nat) :
    (∃ link, linksOf (htmlRow cs!"v6.1" n (inFile [cs!"fs", cs!"%41.c"])) = [link] ∧ LeadsTo link cs!"v6.1" ⟨false, [cs!"fs", cs!"A.c"]⟩ (some 12)) ∧
    (∃ link, linksOf (htmlRow cs!"v6.1" n (inFile [cs!"fs", cs!"a#b.c"])) = [link] ∧
      readUrl link = some ⟨cs!"elixir.bootlin.com", [cs!"linux", cs!"v6.1", cs!"source", cs!"fs", cs!"a"], none, some cs!"b.c#L12"⟩) ∧
    ∃ link, linksOf (htmlRow cs!"v6.1" n (inFile [cs!"..", cs!"fs", cs!"a.c"])) = [link] ∧
      readUrl link = some ⟨cs!"elixir.bootlin.com", [cs!"linux", cs!"v6.1", cs!"fs", cs!"a.c"], none, some cs!"L12"⟩ := by
  have key : ∀ parts, linksOf (htmlRow cs!"v6.1" n (inFile parts)) =
      [cs!"https://elixir.bootlin.com/linux/" ++ cs!"v6.1" ++ cs!"/source/" ++ (Path.mk false parts).str ++ cs!"#L" ++ natRepr 12] := by
    intro parts
    obtain ⟨_, _, _, _, _, _, _, -, -, -, -, -, -, -, -, h3⟩ := hasTags_row cs!"v6.1" n (inFile parts)
    exact (h3 ⟨false, parts⟩ rfl rfl).2 12 rfl
  refine ⟨⟨_, key _, ?_⟩, ⟨_, key _, ?_⟩, ⟨_, key _, ?_⟩⟩
  · unfold LeadsTo; decide +kernel
  · decide +kernel
  · decide +kernel

/-! ## Cases that meet the hypotheses -/

/-- a row with a link, to a file with an ampersand -/
example : ∃ link, linksOf (htmlRow cs!"v6.1" 2 markedSyscall) = [link] ∧ LeadsTo link cs!"v6.1" ⟨false, [cs!"fs", cs!"a&b.c"]⟩ (some 12) := by
  have hp : PlainFile ⟨false, [cs!"fs", cs!"a&b.c"]⟩ := by
    refine ⟨by decide, fun p hp => ?_⟩
    simp only [List.mem_cons, List.not_mem_nil, or_false] at hp
    rcases hp with rfl | rfl <;> exact ⟨by decide, by decide, by decide⟩
  rcases C130_link_partial cs!"v6.1" markedSyscall _ (hasTags_row _ 2 _) ⟨by decide, by decide, by decide⟩
    (fun f hf _ => by cases hf; exact hp) with ⟨h | ⟨f, h, ha⟩, -⟩ | ⟨f, link, h1, -, h2, h3⟩
  · cases h
  · cases h; cases ha
  · cases h1; exact ⟨link, h2, h3⟩

/-- the reader of addresses tells them apart -/
example : readUrl cs!" https://h/a/./b/../c?d#e" = some ⟨cs!"h", [cs!"a", cs!"c"], some cs!"d", some cs!"e"⟩ ∧
    readUrl cs!"https://h/a\\b%20c/.." = some ⟨cs!"h", [cs!"a", []], none, none⟩ ∧ readUrl cs!"http://h" = none := by decide +kernel

end Verif
