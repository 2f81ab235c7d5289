import Verif.Props.Output
import Verif.Lemmas.Str
import Verif.Lemmas.Py
import Verif.Spec.Table
/-! # Reading the text table back (C131) -/
set_option autoImplicit false

namespace Verif
open Spec

theorem trimEnd_pad (c pad : Str) (hc : c.getLast? ≠ some ' ') (hp : AllSpaces pad) : trimEnd (c ++ pad) = c := by
  unfold trimEnd
  have h1 : ∀ q : Str, AllSpaces q → ∀ r : Str, r.head? ≠ some ' ' → (q ++ r).dropWhile (· == ' ') = r := by
    intro q
    induction q with
    | nil =>
      intro _ r hr
      cases r with
      | nil => rfl
      | cons x r =>
        have : x ≠ ' ' := fun e => hr (by rw [e]; rfl)
        rw [List.nil_append, List.dropWhile_cons_of_neg (by simpa using this)]
    | cons x q ih =>
      intro hq r hr
      rw [List.cons_append, List.dropWhile_cons_of_pos (by simpa using hq x (List.mem_cons_self ..))]
      exact ih (fun c hc => hq c (List.mem_cons_of_mem _ hc)) r hr
  rw [List.reverse_append, h1 pad.reverse (fun c hc => hp c (List.mem_reverse.1 hc)) c.reverse (by rwa [List.head?_reverse]), List.reverse_reverse]

/-- an aligned line from a column on -/
theorem aligned_step {offs : List Nat} {cells : List Str} {line : Str} (h : Aligned offs cells line) {k o o' : Nat} {c : Str}
    (ho : offs[k]? = some o) (ho' : offs[k + 1]? = some o') (hc : cells[k]? = some c) :
    ∃ pad, AllSpaces pad ∧ 2 ≤ pad.length ∧ (line.take o').drop o = c ++ pad ∧ line.drop o = c ++ pad ++ line.drop o' ∧
      o' = o + c.length + pad.length := by
  obtain ⟨h1, pad, h2, h3, h4⟩ := (h.2.2 k o c ho hc).1 o' ho'
  have hlen := congrArg List.length h4
  rw [List.length_drop, List.length_take, List.length_append, Nat.min_eq_left h1] at hlen
  have hoo : o ≤ o' := by omega
  refine ⟨pad, h2, h3, h4, ?_, by omega⟩
  rw [← h4]
  have e : line = line.take o' ++ line.drop o' := (List.take_append_drop _ _).symm
  conv => lhs; rw [e]
  rw [List.drop_append_of_le_length]
  rw [List.length_take, Nat.min_eq_left h1]; exact hoo

theorem gap_length (pad rest : Str) (hp : AllSpaces pad) (hr : rest.head? ≠ some ' ') : ((pad ++ rest).takeWhile (· == ' ')).length = pad.length := by
  induction pad with
  | nil =>
    cases rest with
    | nil => rfl
    | cons x r =>
      have : x ≠ ' ' := fun e => hr (by rw [e]; rfl)
      rw [List.nil_append, List.takeWhile_cons_of_neg (by simpa using this)]
  | cons x q ih =>
    rw [List.cons_append, List.takeWhile_cons_of_pos (by simpa using hp x (List.mem_cons_self ..)), List.length_cons,
      ih fun c hc => hp c (List.mem_cons_of_mem _ hc), List.length_cons]

/-- the columns begin where the titles do -/
theorem titleOffsets_aligned {offs : List Nat} {cells : List Str} {line : Str} (h : Aligned offs cells line)
    (hs : ∀ c ∈ cells, c ≠ [] ∧ c.head? ≠ some ' ') :
    ∀ (ts : List Str) (k : Nat) (o : Nat), cells.drop k = ts → (offs[k]? = some o ∨ ts = []) →
      titleOffsets ts o (line.drop o) = some (offs.drop k) := by
  intro ts
  induction ts with
  | nil =>
    intro k o hk _
    have : cells.length ≤ k := by simpa using hk
    rw [titleOffsets, List.drop_of_length_le (by rw [h.2.1]; exact this)]
  | cons t ts ih =>
    intro k o hk ho
    have ho : offs[k]? = some o := by
      rcases ho with ho | ho
      · exact ho
      · cases ho
    have hc : cells[k]? = some t := by rw [← List.head?_drop, hk]; rfl
    have hk' : cells.drop (k + 1) = ts := by
      rw [show cells.drop (k + 1) = (cells.drop k).drop 1 by rw [List.drop_drop], hk]; rfl
    have hoffs : offs.drop k = o :: offs.drop (k + 1) := by
      obtain ⟨hlt, he⟩ := List.getElem?_eq_some_iff.1 ho
      rw [List.drop_eq_getElem_cons hlt, he]
    cases ho' : offs[k + 1]? with
    | some o' =>
      obtain ⟨pad, h2, h3, -, h5, h6⟩ := aligned_step h ho ho' hc
      have hlt : k + 1 < cells.length := by rw [← h.2.1]; exact (List.getElem?_eq_some_iff.1 ho').1
      obtain ⟨c', hc'⟩ : ∃ c', cells[k + 1]? = some c' := ⟨_, List.getElem?_eq_getElem hlt⟩
      have hhead : (line.drop o').head? ≠ some ' ' := by
        obtain ⟨hn, hh⟩ := hs c' (List.mem_of_getElem? hc')
        have hd : ∃ r, line.drop o' = c' ++ r := by
          cases ho'' : offs[k + 1 + 1]? with
          | some o'' => obtain ⟨p, -, -, -, h5', -⟩ := aligned_step h ho' ho'' hc'; exact ⟨p ++ line.drop o'', by rw [h5', List.append_assoc]⟩
          | none => obtain ⟨-, p, -, hp⟩ := (h.2.2 (k + 1) o' c' ho' hc').2 ho''; exact ⟨p, hp⟩
        obtain ⟨r, hr⟩ := hd
        rw [hr]
        cases c' with
        | nil => exact absurd rfl hn
        | cons x xs => exact hh
      rw [titleOffsets, if_pos (by rw [h5, List.append_assoc, List.isPrefixOf_iff_prefix]; exact List.prefix_append _ _)]
      simp only
      rw [h5, List.append_assoc, List.drop_left, gap_length pad _ h2 hhead, List.drop_left, ← h6, ih (k + 1) o' hk' (.inl ho'), hoffs]
      rfl
    | none =>
      obtain ⟨-, pad, hp, hd⟩ := (h.2.2 k o t ho hc).2 ho'
      have hts : ts = [] := by
        rw [← hk']
        refine List.drop_of_length_le ?_
        rw [← h.2.1]
        exact List.getElem?_eq_none_iff.1 ho'
      rw [titleOffsets, if_pos (by rw [hd, List.isPrefixOf_iff_prefix]; exact List.prefix_append _ _)]
      simp only
      subst hts
      rw [titleOffsets, hoffs, List.drop_of_length_le (List.getElem?_eq_none_iff.1 ho')]
      rfl

/-- and contain the cells -/
theorem tableColumns_aligned {offs : List Nat} {cells : List Str} {line : Str} (h : Aligned offs cells line) :
    ∀ (os : List Nat) (k : Nat), offs.drop k = os → tableColumns os line = (cells.drop k).map trimEnd := by
  intro os
  induction os with
  | nil =>
    intro k hk
    have : offs.length ≤ k := by simpa using hk
    rw [tableColumns, List.drop_of_length_le (by rw [← h.2.1]; exact this)]
    rfl
  | cons o os ih =>
    intro k hk
    have ho : offs[k]? = some o := by rw [← List.head?_drop, hk]; rfl
    have hk' : offs.drop (k + 1) = os := by
      rw [show offs.drop (k + 1) = (offs.drop k).drop 1 by rw [List.drop_drop], hk]; rfl
    have hlt : k < cells.length := by rw [← h.2.1]; exact (List.getElem?_eq_some_iff.1 ho).1
    have hc : cells[k]? = some cells[k] := List.getElem?_eq_getElem hlt
    rw [List.drop_eq_getElem_cons hlt, List.map_cons]
    have trim : ∀ c pad : Str, AllSpaces pad → trimEnd (c ++ pad) = trimEnd c := by
      intro c pad hp
      unfold trimEnd
      rw [List.reverse_append]
      have : ∀ q r : Str, AllSpaces q → (q ++ r).dropWhile (· == ' ') = r.dropWhile (· == ' ') := by
        intro q r hq
        induction q with
        | nil => rfl
        | cons x q ih =>
          rw [List.cons_append, List.dropWhile_cons_of_pos (by simpa using hq x (List.mem_cons_self ..))]
          exact ih fun c hc => hq c (List.mem_cons_of_mem _ hc)
      rw [this _ _ fun c hc => hp c (List.mem_reverse.1 hc)]
    cases os with
    | nil =>
      have ho' : offs[k + 1]? = none := List.getElem?_eq_none_iff.2 (by simpa using hk')
      obtain ⟨-, pad, hp, hd⟩ := (h.2.2 k o _ ho hc).2 ho'
      rw [tableColumns, hd, trim _ _ hp, List.drop_of_length_le]
      · rfl
      · rw [← h.2.1]; exact List.getElem?_eq_none_iff.1 ho'
    | cons o' os' =>
      have ho' : offs[k + 1]? = some o' := by rw [← List.head?_drop, hk']; rfl
      obtain ⟨pad, h2, -, h4, -, -⟩ := aligned_step h ho ho' hc
      rw [tableColumns, h4, trim _ _ h2, ih (k + 1) hk']

/-- a line has only what the cells have, and spaces -/
theorem aligned_mem {offs : List Nat} {cells : List Str} {line : Str} (h : Aligned offs cells line) {x : Char} (hx : x ≠ ' ')
    (hc : ∀ c ∈ cells, x ∉ c) : ∀ (os : List Nat) (k : Nat) (o : Nat), offs.drop k = o :: os → x ∉ line.drop o := by
  intro os
  induction os with
  | nil =>
    intro k o hk
    have ho : offs[k]? = some o := by rw [← List.head?_drop, hk]; rfl
    have hlt : k < cells.length := by rw [← h.2.1]; exact (List.getElem?_eq_some_iff.1 ho).1
    have hk' : offs.drop (k + 1) = [] := by
      rw [show offs.drop (k + 1) = (offs.drop k).drop 1 by rw [List.drop_drop], hk]; rfl
    obtain ⟨-, pad, hp, hd⟩ := (h.2.2 k o _ ho (List.getElem?_eq_getElem hlt)).2 (List.getElem?_eq_none_iff.2 (by simpa using hk'))
    rw [hd]
    intro hm
    rcases List.mem_append.1 hm with hm | hm
    · exact hc _ (List.getElem_mem hlt) hm
    · exact hx (hp x hm)
  | cons o' os ih =>
    intro k o hk
    have ho : offs[k]? = some o := by rw [← List.head?_drop, hk]; rfl
    have hlt : k < cells.length := by rw [← h.2.1]; exact (List.getElem?_eq_some_iff.1 ho).1
    have hk' : offs.drop (k + 1) = o' :: os := by
      rw [show offs.drop (k + 1) = (offs.drop k).drop 1 by rw [List.drop_drop], hk]; rfl
    have ho' : offs[k + 1]? = some o' := by rw [← List.head?_drop, hk']; rfl
    obtain ⟨pad, h2, -, -, h5, -⟩ := aligned_step h ho ho' (List.getElem?_eq_getElem hlt)
    rw [h5]
    intro hm
    rcases List.mem_append.1 hm with hm | hm
    · rcases List.mem_append.1 hm with hm | hm
      · exact hc _ (List.getElem_mem hlt) hm
      · exact hx (h2 x hm)
    · exact ih (k + 1) o' hk' hm

theorem aligned_clean {offs : List Nat} {cells : List Str} {line : Str} (h : Aligned offs cells line) {x : Char} (hx : x ≠ ' ')
    (hc : ∀ c ∈ cells, x ∉ c) : x ∉ line := by
  cases offs with
  | nil => exact absurd h.1 (by simp)
  | cons o os =>
    have h0 : o = 0 := by simpa using h.1
    have := aligned_mem h hx hc os 0 o rfl
    rwa [h0, List.drop_zero] at this

theorem splitLines_join (ls : List Str) (h : ∀ l ∈ ls, '\n' ∉ l) : (splitChar '\n' (ls.flatMap (· ++ cs!"\n"))).dropLast = ls := by
  have : splitChar '\n' (ls.flatMap (· ++ cs!"\n")) = ls ++ [[]] := by
    induction ls with
    | nil => rfl
    | cons l ls ih =>
      rw [List.flatMap_cons, List.append_assoc, List.singleton_append, splitChar_append _ _ _ (h l (List.mem_cons_self ..)),
        ih fun x hx => h x (List.mem_cons_of_mem _ hx)]
      rfl
  rw [this, List.dropLast_concat]

theorem Spec.Tidy.trim {s : Str} (h : Tidy s) : trimEnd s = s := by
  have := trimEnd_pad s [] h.2 (fun c hc => by cases hc)
  rwa [List.append_nil] at this

theorem Spec.Tidy.append {a b : Str} (ha : '\n' ∉ a) (hb : Tidy b) (hn : b ≠ []) : Tidy (a ++ b) := by
  refine ⟨fun hm => ?_, ?_⟩
  · rcases List.mem_append.1 hm with hm | hm
    · exact ha hm
    · exact hb.1 hm
  · rw [List.getLast?_append_of_ne_nil _ hn]; exact hb.2

theorem tidy_digits {s : Str} (h : ∀ c ∈ s, isDigit c = true) : Tidy s := by
  refine ⟨fun hm => absurd (h _ hm) (by decide), fun e => absurd (h _ (List.mem_of_getLast? e)) (by decide)⟩

theorem tidy_hex {s : Str} (h : ∀ c ∈ s, isHexDigit c = true) : Tidy s := by
  refine ⟨fun hm => absurd (h _ hm) (by decide), fun e => absurd (h _ (List.mem_of_getLast? e)) (by decide)⟩

theorem spaces_clean {s : Str} (h : AllSpaces s) : '\n' ∉ s := fun hm => absurd (h _ hm) (by decide)

theorem read_index {idx : Option Nat} {t : Str} (h : IndexCell idx t) :
    '\n' ∉ t ∧ (if trimEnd t = cs!"-" then none else some (natOfDigits ((trimEnd t).dropWhile (· == ' ')))) = idx := by
  cases idx with
  | none => cases (h : t = cs!"-  "); exact ⟨by decide, by decide⟩
  | some i =>
    obtain ⟨-, pad, digits, rfl, hp, -, hne, hd, hv⟩ := h
    have ht : Tidy (pad ++ digits) := (tidy_digits hd).append (spaces_clean hp) hne
    refine ⟨ht.1, ?_⟩
    rw [ht.trim, if_neg]
    · have hdw : (pad ++ digits).dropWhile (· == ' ') = digits := by
        clear ht
        induction pad with
        | nil =>
          cases digits with
          | nil => rfl
          | cons x r =>
            have : x ≠ ' ' := fun e => absurd (hd x (List.mem_cons_self ..)) (by rw [e]; decide)
            rw [List.nil_append, List.dropWhile_cons_of_neg (by simpa using this)]
        | cons x q ih =>
          rw [List.cons_append, List.dropWhile_cons_of_pos (by simpa using hp x (List.mem_cons_self ..))]
          exact ih fun c hc => hp c (List.mem_cons_of_mem _ hc)
      rw [hdw, hv]
    · intro e
      have hm : ∀ c ∈ digits, c = '-' := fun c hc => by
        have : c ∈ cs!"-" := by rw [← e]; exact List.mem_append_right _ hc
        simpa using this
      cases digits with
      | nil => exact hne rfl
      | cons x r =>
        have h1 := hd x (List.mem_cons_self ..)
        rw [hm x (List.mem_cons_self ..)] at h1
        exact absurd h1 (by decide)

theorem tidy_location {sc : Syscall} {t : Str} (h : LocationCell sc t) (hf : ∀ f, sc.file = some f → f.str ≠ [] ∧ Tidy f.str) : Tidy t := by
  rcases h with ⟨-, rfl⟩ | ⟨f, place, hfile, hp, rfl⟩
  · exact ⟨by decide, by decide⟩
  · obtain ⟨hne, ht⟩ := hf f hfile
    have hplace : Tidy place ∧ place ≠ [] := by
      rcases hp with ⟨-, rfl⟩ | ⟨-, rfl⟩ | ⟨l, -, -, rfl⟩
      · exact ⟨ht, hne⟩
      · exact ⟨ht, hne⟩
      · refine ⟨(tidy_digits (natRepr_all_digits l)).append ?_ (natRepr_ne_nil l), fun e => ?_⟩
        · intro hm
          rcases List.mem_append.1 hm with hm | hm
          · exact ht.1 hm
          · exact absurd hm (by decide)
        · exact natRepr_ne_nil l (List.append_eq_nil_iff.1 e).2
    split
    · exact hplace.1
    · exact hplace.1.append (by decide) hplace.2

/-- a row of cells read back -/
theorem readRow_cells {sc : Syscall} {cells : List Str} (h : CellsOf sc cells) (ht : TidySyscall sc) :
    (∀ c ∈ cells, '\n' ∉ c) ∧ ∃ r, readRow (cells.map trimEnd) = some r ∧ Tells sc r := by
  obtain ⟨i, n, o, l, k, g, rfl, hi, ⟨hx, rfl, hxn, hxd, hxv⟩, ho1, ho2, hl, hk, hg⟩ := h
  obtain ⟨t1, t2, t3, t4, t5, t6, t7⟩ := ht
  obtain ⟨hi1, hi2⟩ := read_index hi
  have hn : Tidy (cs!"0x" ++ hx) := (tidy_hex hxd).append (by decide) hxn
  have ho : Tidy o ∧ (if o = [] then sc.name else o) = sc.origname := by
    by_cases e : sc.origname = sc.name
    · rw [ho1 e]; exact ⟨⟨by decide, by decide⟩, by rw [if_pos rfl, e]⟩
    · rw [ho2 e]; exact ⟨t3, if_neg t2⟩
  have hl' := tidy_location hl t5
  have hkt : Tidy k ∧ (∀ k', sc.kconfig = some k' → k' = cs!"CONFIG_" ++ k) ∧ (sc.kconfig = none → k = []) := by
    cases hkc : sc.kconfig with
    | none => rw [hk.1 hkc]; exact ⟨⟨by decide, by decide⟩, fun _ e => (by cases e), fun _ => rfl⟩
    | some k' =>
      obtain ⟨opt, rfl, h1, h2⟩ := t6 k' hkc
      have := hk.2 opt hkc h1
      subst this
      exact ⟨h2, fun _ e => (by cases e; rfl), fun e => (by cases e)⟩
  have hgt : Tidy g := by
    cases hs : sc.signature with
    | none => rw [hg.1 hs]; exact ⟨by decide, by decide⟩
    | some sig =>
      by_cases e : sig = []
      · rw [hg.2.1 (by rw [hs, e])]; exact ⟨by decide, by decide⟩
      · rw [hg.2.2 sig hs e]; exact t7 sig hs
  constructor
  · intro c hc
    simp only [List.mem_cons, List.not_mem_nil, or_false] at hc
    rcases hc with rfl | rfl | rfl | rfl | rfl | rfl | rfl | rfl
    exacts [hi1, hn.1, t1.1, ho.1.1, t4.1, hl'.1, hkt.1.1, hgt.1]
  · simp only [List.map_cons, List.map_nil, readRow]
    refine ⟨_, rfl, hi2, ?_, t1.trim, ?_, t4.trim, ?_, ?_, ?_, ?_⟩
    · simp only; rw [hn.trim]; exact hxv
    · simp only; rw [ho.1.trim, t1.trim]; exact ho.2
    · simp only; rw [hl'.trim]; exact hl
    · simp only; rw [hkt.1.trim]; exact hkt.2.1
    · simp only; rw [hkt.1.trim]; exact hkt.2.2
    · simp only; rw [hgt.trim]; exact hg

theorem listing_lines {offs : List Nat} {scs : List Syscall} : ∀ {prev : Option Nat} {lines : List Str}, Listing offs prev scs lines →
    (∀ sc ∈ scs, TidySyscall sc) → (∀ l ∈ lines, '\n' ∉ l) ∧
      ∃ rows, (lines.filter (· ≠ [])).mapM (fun l => readRow (tableColumns offs l)) = some rows ∧ List.Forall₂ Tells scs rows := by
  have line_ne : ∀ {cells : List Str} {line : Str} {sc : Syscall}, CellsOf sc cells → Aligned offs cells line → line ≠ [] := by
    rintro cells line sc ⟨i, n, o, l, k, g, rfl, -⟩ ha e
    have h1 : 1 < offs.length := by rw [ha.2.1]; exact Nat.succ_lt_succ (Nat.succ_pos _)
    obtain ⟨pad, -, h2, -, h3, -⟩ := aligned_step (k := 0) ha ha.1 (List.getElem?_eq_getElem h1) rfl
    have := congrArg List.length h3
    rw [e] at this
    simp only [List.drop_nil, List.length_nil, List.length_append] at this
    omega
  intro prev lines h ht
  induction h with
  | nil => exact ⟨fun l hl => (by cases hl), [], rfl, .nil⟩
  | next hn hc ha hl ih =>
    rename_i sc scs cells line lines
    obtain ⟨h1, rows, h2, h3⟩ := ih fun s hs => ht s (List.mem_cons_of_mem _ hs)
    obtain ⟨g1, r, g2, g3⟩ := readRow_cells hc (ht _ (List.mem_cons_self ..))
    refine ⟨?_, r :: rows, ?_, .cons g3 h3⟩
    · intro l hl
      rcases List.mem_cons.1 hl with rfl | hl
      · exact aligned_clean ha (by decide) g1
      · exact h1 l hl
    · rw [List.filter_cons_of_pos (by simpa using line_ne hc ha), List.mapM_cons, tableColumns_aligned ha offs 0 rfl, List.drop_zero, g2, h2]
      rfl
  | gap hn hc ha hl ih =>
    rename_i sc scs cells line lines
    obtain ⟨h1, rows, h2, h3⟩ := ih fun s hs => ht s (List.mem_cons_of_mem _ hs)
    obtain ⟨g1, r, g2, g3⟩ := readRow_cells hc (ht _ (List.mem_cons_self ..))
    refine ⟨?_, r :: rows, ?_, .cons g3 h3⟩
    · intro l hl
      rcases List.mem_cons.1 hl with rfl | hl
      · exact List.not_mem_nil
      · rcases List.mem_cons.1 hl with rfl | hl
        · exact aligned_clean ha (by decide) g1
        · exact h1 l hl
    · rw [List.filter_cons_of_neg (by simp), List.filter_cons_of_pos (by simpa using line_ne hc ha), List.mapM_cons,
        tableColumns_aligned ha offs 0 rfl, List.drop_zero, g2, h2]
      rfl

/-- **C131**: from the text of a non-empty listing a script can read back all syscalls in order, each with its index, number, names,
symbol, location, option and signature as text. (What is missing: texts with ends of lines or with spaces at their end.) -/
theorem C131_read_partial (scs : List Syscall) (hne : scs ≠ []) (hpath : ∀ sc ∈ scs, ∀ f, sc.file = some f → ∀ x ∈ f.parts, x ≠ [])
    (ht : ∀ sc ∈ scs, TidySyscall sc) :
    ∃ text rows, outputText scs = .ok text ∧ readTable text = some rows ∧ List.Forall₂ Tells scs rows := by
  obtain ⟨offs, header, rest, h1, h2, h3⟩ := C70_text scs hne hpath
  obtain ⟨h4, rows, h5, h6⟩ := listing_lines h3 ht
  refine ⟨_, rows, h1, ?_, h6⟩
  have hh : '\n' ∉ header := aligned_clean h2 (by decide) (by decide)
  have ho : titleOffsets titles 0 header = some offs := by
    have := titleOffsets_aligned h2 (by decide) titles 0 0 rfl (.inl h2.1)
    rwa [List.drop_zero, List.drop_zero] at this
  unfold readTable
  rw [splitLines_join (header :: rest) (fun l hl => by
    rcases List.mem_cons.1 hl with rfl | hl
    · exact hh
    · exact h4 l hl)]
  simp only
  rw [ho]
  exact h5

/-- **C131**: so listings that look the same agree in all that. -/
theorem C131_same_partial (xs ys : List Syscall) (hx : xs ≠ []) (hy : ys ≠ [])
    (hpx : ∀ sc ∈ xs, ∀ f, sc.file = some f → ∀ x ∈ f.parts, x ≠ []) (hpy : ∀ sc ∈ ys, ∀ f, sc.file = some f → ∀ x ∈ f.parts, x ≠ [])
    (htx : ∀ sc ∈ xs, TidySyscall sc) (hty : ∀ sc ∈ ys, TidySyscall sc) (h : outputText xs = outputText ys) :
    List.Forall₂ (fun x y : Syscall => x.index = y.index ∧ x.number = y.number ∧ x.name = y.name ∧ x.origname = y.origname ∧
      x.symbol.name = y.symbol.name ∧ (x.kconfig.isSome = true → y.kconfig.isSome = true → x.kconfig = y.kconfig)) xs ys := by
  obtain ⟨text, rows, h1, h2, h3⟩ := C131_read_partial xs hx hpx htx
  obtain ⟨text', rows', g1, g2, g3⟩ := C131_read_partial ys hy hpy hty
  rw [h, g1] at h1
  cases h1
  rw [g2] at h2
  cases h2
  clear h g1 g2 hx hy hpx hpy htx hty
  induction h3 generalizing ys with
  | nil => cases g3; exact .nil
  | cons ha hr ih =>
    cases g3 with
    | cons gb gr =>
      refine .cons ?_ (ih _ gr)
      obtain ⟨a1, a2, a3, a4, a5, -, a6, -, -⟩ := ha
      obtain ⟨b1, b2, b3, b4, b5, -, b6, -, -⟩ := gb
      refine ⟨a1.symm.trans b1, a2.symm.trans b2, a3.symm.trans b3, a4.symm.trans b4, a5.symm.trans b5, fun hx hy => ?_⟩
      obtain ⟨k, hk⟩ := Option.isSome_iff_exists.1 hx
      obtain ⟨k', hk'⟩ := Option.isSome_iff_exists.1 hy
      rw [hk, hk', a6 k hk, b6 k' hk']

/-- a syscall with arguments in a file -/
def tableSyscall (sig : List Str) (file : Path) (line : Option Nat) : Syscall :=
  { exVoid with signature := some sig, file := some file, line := line, goodLocation := true }

/-- **C131**, what is false: not everything can be told from the text. Arguments with a comma look like two arguments, and a file whose
name ends like a line number looks like a line of another file. -/
theorem C131_refuted :
    outputText [tableSyscall [cs!"int (*f)(int, int)"] ⟨false, [cs!"a.c"]⟩ none] =
      outputText [tableSyscall [cs!"int (*f)(int", cs!"int)"] ⟨false, [cs!"a.c"]⟩ none] ∧
    outputText [tableSyscall [] ⟨false, [cs!"a.c:1"]⟩ none] = outputText [tableSyscall [] ⟨false, [cs!"a.c"]⟩ (some 1)] := by
  decide +kernel

/-! ## Cases that meet the hypotheses -/

/-- what is read from a table -/
example : (match outputText exList with | .ok t => readTable t | .error _ => none).map (List.map fun r : TableRow => (r.number, r.name)) =
    some (exList.map fun sc => (sc.number, sc.name)) := by decide +kernel

/-- the hypotheses of `C131_read_partial` hold of the list of `C70_text` -/
theorem exList_tidy : ∀ sc ∈ exList, TidySyscall sc := by
  intro sc h
  simp only [exList, List.mem_cons, List.not_mem_nil, or_false] at h
  have hbpf : ¬ (cs!"CONFIG_" <:+: cs!"BPF_SYSCALL") := by decide
  rcases h with rfl | rfl | rfl
  · refine ⟨by decide, by decide, by decide, by decide, fun f e => ?_, fun k e => (by cases e), fun sig e => ?_⟩
    · cases e; decide +kernel
    · cases e; decide +kernel
  · refine ⟨by decide, by decide, by decide, by decide, fun f e => ?_, fun k e => (by cases e), fun sig e => ?_⟩
    · cases e; decide +kernel
    · cases e; decide +kernel
  · refine ⟨by decide, by decide, by decide, by decide, fun f e => (by cases e), fun k e => ?_, fun sig e => (by cases e)⟩
    cases e; exact ⟨cs!"BPF_SYSCALL", rfl, hbpf, by decide⟩

/-- so its table can be read back -/
example : ∃ text rows, outputText exList = .ok text ∧ readTable text = some rows ∧ List.Forall₂ Tells exList rows :=
  C131_read_partial exList (by decide) (by decide +kernel) exList_tidy

end Verif
