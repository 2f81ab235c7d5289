import Verif.Spec.Shared
import Verif.Lemmas.Build
/-! # Lemmas on builds at the same time -/
set_option autoImplicit false

namespace Verif
open Spec

theorem writeAt_get {disk piece : Str} {off i : Nat} {ch : Char} (h : (writeAt disk off piece)[i]? = some ch) :
    disk[i]? = some ch ∨ ch = '\x00' ∨ (off ≤ i ∧ piece[i - off]? = some ch) := by
  unfold writeAt at h
  have hl : ((disk ++ List.replicate (off - disk.length) '\x00').take off).length = off := by
    simp only [List.length_take, List.length_append, List.length_replicate]; omega
  rw [List.append_assoc] at h
  by_cases h1 : i < off
  · rw [List.getElem?_append_left (by omega), List.getElem?_take, if_pos h1] at h
    by_cases h2 : i < disk.length
    · rw [List.getElem?_append_left h2] at h; exact .inl h
    · rw [List.getElem?_append_right (by omega), List.getElem?_replicate] at h
      split at h
      · cases h; exact .inr (.inl rfl)
      · cases h
  · rw [List.getElem?_append_right (by omega), hl] at h
    by_cases h2 : i - off < piece.length
    · rw [List.getElem?_append_left h2] at h; exact .inr (.inr ⟨by omega, h⟩)
    · rw [List.getElem?_append_right (by omega), List.getElem?_drop] at h
      left; rw [← h]; congr 1; omega

theorem writeAt_length {disk piece : Str} {off n : Nat} (h1 : disk.length ≤ n) (h2 : off + piece.length ≤ n) :
    (writeAt disk off piece).length ≤ n := by
  unfold writeAt
  simp only [List.length_append, List.length_take, List.length_replicate, List.length_drop]; omega

theorem resize_get {disk : Str} {n i : Nat} {ch : Char} (h : (resize disk n)[i]? = some ch) : disk[i]? = some ch ∨ ch = '\x00' := by
  unfold resize at h
  by_cases h1 : i < (disk.take n).length
  · rw [List.getElem?_append_left h1, List.getElem?_take] at h
    split at h
    · exact .inl h
    · cases h
  · rw [List.getElem?_append_right (by omega), List.getElem?_replicate] at h
    split at h
    · cases h; exact .inr rfl
    · cases h

theorem resize_length {disk : Str} {n : Nat} : (resize disk n).length = n := by
  unfold resize; simp only [List.length_append, List.length_take, List.length_replicate]; omega

theorem Spec.Damaged.refl (M : Str) (pos : Nat) : Damaged M pos M := ⟨le_rfl, fun _ _ h => .inl h⟩

theorem Spec.Damaged.nil (M : Str) (pos : Nat) : Damaged M pos [] := ⟨Nat.zero_le _, fun _ _ h => by simp at h⟩

theorem Spec.Damaged.write {M disk text : Str} {pos off n : Nat} (hd : Damaged M pos disk) (ht : Damaged M pos text) (ho : off < text.length) :
    Damaged M pos (writeAt disk off ((text.drop off).take n)) := by
  refine ⟨writeAt_length hd.1 ?_, fun i ch h => ?_⟩
  · have := ht.1; simp only [List.length_take, List.length_drop]; omega
  · rcases writeAt_get h with h | h | ⟨h1, h⟩
    · exact hd.2 i ch h
    · exact .inr (.inl h)
    · rw [List.getElem?_take] at h
      split at h
      · rw [List.getElem?_drop] at h
        exact ht.2 i ch (by rw [← h]; congr 1; omega)
      · cases h

theorem Spec.Damaged.resize {M disk : Str} {pos n : Nat} (hd : Damaged M pos disk) (hn : n ≤ M.length) : Damaged M pos (resize disk n) := by
  refine ⟨by rw [resize_length]; exact hn, fun i ch h => ?_⟩
  rcases resize_get h with h | h
  · exact hd.2 i ch h
  · exact .inr (.inl h)

theorem Spec.Damaged.read {M disk got : Str} {pos n : Nat} (hd : Damaged M pos disk) (hg : Damaged M pos got) :
    Damaged M pos (got ++ (disk.drop got.length).take n) := by
  refine ⟨?_, fun i ch h => ?_⟩
  · have := hd.1; have := hg.1; simp only [List.length_append, List.length_take, List.length_drop]; omega
  · by_cases h1 : i < got.length
    · rw [List.getElem?_append_left h1] at h; exact hg.2 i ch h
    · rw [List.getElem?_append_right (by omega), List.getElem?_take] at h
      split at h
      · rw [List.getElem?_drop] at h
        exact hd.2 i ch (by rw [← h]; congr 1; omega)
      · cases h

theorem Spec.Damaged.noReturn {M c : Str} {pos : Nat} (hr : '\r' ∉ M) (hd : Damaged M pos c) : '\r' ∉ c := by
  intro h
  obtain ⟨i, hi⟩ := List.mem_iff_getElem?.1 h
  rcases hd.2 i _ hi with h | h | ⟨-, h | h⟩
  · exact hr (List.mem_of_getElem? h)
  all_goals exact absurd h (by decide)

theorem seg_of_get {M seg : Str} {off : Nat} (h : ∀ i ch, seg[i]? = some ch → M[off + i]? = some ch) (hl : off ≤ M.length) :
    ∃ rest, M = M.take off ++ seg ++ rest := by
  have hp : seg <+: M.drop off := by
    rw [List.prefix_iff_getElem?]
    intro i hi
    rw [List.getElem?_drop]
    exact h i _ (List.getElem?_eq_getElem hi)
  obtain ⟨rest, hr⟩ := hp
  exact ⟨rest, by rw [List.append_assoc, hr, List.take_append_drop]⟩

/-- letters of the line are neither NUL nor a level that is written -/
theorem flag_letter {text a mid post : Str} (h : FlagAt text a mid post) : ∀ c ∈ mid ++ ['2', '\n'], c ≠ '\x00' ∧ c ≠ '0' ∧ c ≠ '1' := by
  obtain ⟨-, -, ⟨ws, ws', rfl, hw, hw'⟩, -⟩ := h
  have hs : ∀ c, isSpace c = true → c ≠ '\x00' ∧ c ≠ '0' ∧ c ≠ '1' := by
    intro c hc
    refine ⟨?_, ?_, ?_⟩ <;> rintro rfl <;> exact absurd hc (by decide)
  have hk : ∀ c ∈ cs!"KBUILD_CFLAGS" ++ cs!"+=" ++ cs!"-O" ++ ['2', '\n'], c ≠ '\x00' ∧ c ≠ '0' ∧ c ≠ '1' := by decide
  intro c hc
  simp only [List.mem_append] at hc hk
  rcases hc with ((((hc | hc) | hc) | hc) | hc) | hc
  · exact hk c (.inl (.inl (.inl hc)))
  · exact hs c (hw c hc)
  · exact hk c (.inl (.inl (.inr hc)))
  · exact hs c (hw' c hc)
  · exact hk c (.inl (.inr hc))
  · exact hk c (.inr hc)

/-- in a damaged Makefile the line can only be where it was -/
theorem Spec.Damaged.flag {M a mid post c a' mid' post' : Str} (hM : OnlyFlag M a mid post) (hd : Damaged M (a ++ mid).length c)
    (hf : FlagAt c a' mid' post') : (a' ++ mid').length = (a ++ mid).length := by
  have hl := flag_letter hf
  obtain ⟨h1, h2, h3, rest, h4⟩ := hf
  subst h4
  have hc : c = a' ++ (mid' ++ ['2', '\n']) ++ rest := by rw [h1]; simp
  have hlen := hd.1
  have hlen' : a'.length ≤ M.length := by rw [hc] at hlen; simp only [List.length_append] at hlen; omega
  obtain ⟨rest', hr⟩ := seg_of_get (M := M) (seg := mid' ++ ['2', '\n']) (off := a'.length) (fun i ch hi => by
    have hci : c[a'.length + i]? = some ch := by
      have := (List.getElem?_eq_some_iff.1 hi).1
      rw [hc, List.append_assoc, List.getElem?_append_right (by omega), List.getElem?_append_left (by omega), ← hi]
      congr 1; omega
    have hne := hl ch (List.mem_of_getElem? hi)
    rcases hd.2 _ ch hci with h | h | ⟨-, h | h⟩
    · exact h
    · exact absurd h hne.1
    · exact absurd h hne.2.1
    · exact absurd h hne.2.2) hlen'
  have hF : FlagAt M (M.take a'.length) mid' ('\n' :: rest') := by
    refine ⟨hr.trans (by simp), ?_, h3, rest', rfl⟩
    rcases h2 with h2 | h2
    · left; rw [h2]; rfl
    · right
      have hpos : 0 < a'.length := by cases a' with
        | nil => simp at h2
        | cons _ _ => simp
      have hci : c[a'.length - 1]? = some '\n' := by
        rw [hc, List.append_assoc, List.getElem?_append_left (by omega), ← List.getLast?_eq_getElem?, h2]
      rw [List.getLast?_eq_getElem?, List.length_take, Nat.min_eq_left hlen', List.getElem?_take, if_pos (by omega)]
      rcases hd.2 _ _ hci with h | h | ⟨-, h | h⟩
      · exact h
      all_goals exact absurd h (by decide)
  have ha := hM.2 _ _ _ hF
  have hal : a'.length = a.length := by rw [← ha, List.length_take, Nat.min_eq_left hlen']
  rw [ha] at hF
  obtain ⟨g1, -, g3⟩ := FlagAt_shift.1 hF
  obtain ⟨g1', -, g3'⟩ := FlagAt_shift.1 hM.1
  rw [List.append_assoc] at g1 g1'
  have e := List.append_cancel_left (g1.symm.trans g1')
  rw [e] at g3
  have := (flagsAt_complete g3).symm.trans (flagsAt_complete g3')
  simp only [Option.some.injEq, Prod.mk.injEq] at this
  rw [List.length_append, List.length_append, hal, this.1]

/-- what is written is damaged no more than what was read -/
theorem Spec.Damaged.patch {M a mid post c pre post' : Str} {lvl : Nat} (hM : OnlyFlag M a mid post) (hd : Damaged M (a ++ mid).length c)
    (hv : lvl = 0 ∨ lvl = 1) (hf : findFlags true c = some (pre, post')) : Damaged M (a ++ mid).length (pre ++ natRepr lvl ++ post') := by
  obtain ⟨a', mid', rfl, h⟩ := findFlags_some hf
  have hp := hd.flag hM h.1
  have hc := h.1.1
  obtain ⟨d, hd1, hd2⟩ : ∃ d, natRepr lvl = [d] ∧ (d = '0' ∨ d = '1') := by
    rcases hv with rfl | rfl
    · exact ⟨'0', by decide, .inl rfl⟩
    · exact ⟨'1', by decide, .inr rfl⟩
  rw [hd1]
  refine ⟨?_, fun i ch hi => ?_⟩
  · have := hd.1; rw [hc] at this; simp only [List.length_append, List.length_cons, List.length_nil] at this ⊢; omega
  · rw [List.append_assoc] at hi
    rcases Nat.lt_trichotomy i (a' ++ mid').length with h1 | h1 | h1
    · rw [List.getElem?_append_left h1] at hi
      exact hd.2 i ch (by rw [hc, List.getElem?_append_left h1, hi])
    · subst h1
      rw [List.getElem?_append_right (le_refl _), Nat.sub_self] at hi
      simp only [List.cons_append, List.nil_append, List.getElem?_cons_zero, Option.some.injEq] at hi
      subst hi
      exact .inr (.inr ⟨hp, hd2⟩)
    · rw [List.getElem?_append_right (by omega)] at hi
      refine hd.2 i ch ?_
      rw [hc, List.getElem?_append_right (by omega)]
      obtain ⟨k, hk⟩ : ∃ k, i - (a' ++ mid').length = k + 1 := ⟨i - (a' ++ mid').length - 1, by omega⟩
      rw [hk] at hi ⊢
      simpa using hi

end Verif
