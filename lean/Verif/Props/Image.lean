import Verif.Props.EndToEnd
import Verif.Lemmas.Str
import Verif.Spec.Image
/-! # Which image is analysed (C88) -/
set_option autoImplicit false

namespace Verif
open Spec

theorem join_splitChar (sep : Char) : ∀ s : Str, joinWith [sep] (splitChar sep s) = s ∧ ∀ f ∈ splitChar sep s, sep ∉ f
  | [] => ⟨rfl, fun f hf => by rw [splitChar, List.mem_singleton] at hf; rw [hf]; exact List.not_mem_nil⟩
  | c :: s => by
    obtain ⟨h1, h2⟩ := join_splitChar sep s
    have hne := splitChar_ne_nil sep s
    simp only [splitChar]
    by_cases hc : c = sep
    · rw [if_pos hc]
      constructor
      · cases hs : splitChar sep s with
        | nil => exact absurd hs hne
        | cons w ws => rw [hs] at h1; rw [joinWith, h1, hc]; rfl; exact fun e => by cases e
      · intro f hf
        rcases List.mem_cons.1 hf with rfl | hf
        · exact List.not_mem_nil
        · exact h2 f hf
    · rw [if_neg hc]
      cases hs : splitChar sep s with
      | nil => exact absurd hs hne
      | cons w ws =>
        rw [hs] at h1 h2
        simp only
        constructor
        · cases ws with
          | nil => simp only [joinWith] at h1 ⊢; rw [h1]
          | cons v vs => simp only [joinWith, List.cons_append] at h1 ⊢; rw [h1]
        · intro f hf
          rcases List.mem_cons.1 hf with rfl | hf
          · intro hm
            rcases List.mem_cons.1 hm with e | hm
            · exact hc e.symm
            · exact h2 w (List.mem_cons_self ..) hm
          · exact h2 f (List.mem_cons_of_mem _ hf)

theorem written_parse (c : Char) (t : Str) : Written (c :: t) (parsePath (c :: t)) := by
  refine ⟨?_, splitChar '/' (c :: t), splitChar_ne_nil _ _, (join_splitChar '/' _).2, (join_splitChar '/' _).1, ?_⟩
  · show ('/' == c && true) = true ↔ some c = some '/'
    rw [Bool.and_true, beq_iff_eq, Option.some.injEq]
    exact eq_comm
  · simp only [parsePath]
    refine List.filter_congr fun s _ => ?_
    cases s <;> simp

theorem written_unique {t : Str} {p q : Path} (hp : Written t p) (hq : Written t q) : p = q := by
  obtain ⟨h1, n1, hn1, hs1, hj1, hp1⟩ := hp
  obtain ⟨h2, n2, hn2, hs2, hj2, hp2⟩ := hq
  have e : n1 = n2 := by
    rw [← splitChar_join '/' n1 hn1 hs1, ← splitChar_join '/' n2 hn2 hs2, hj1, hj2]
  obtain ⟨pa, pp⟩ := p
  obtain ⟨qa, qp⟩ := q
  simp only at h1 h2 hp1 hp2
  rw [hp1, hp2, e, Bool.eq_iff_iff.2 (h1.trans h2.symm)]

/-- the model takes the path of the specification -/
theorem vmlinuxPath_image (args : Args) (p : Path) : vmlinuxPath args = some p ↔ IsImage args p := by
  have path : ∀ o : Option Str, (∃ t, t ≠ [] ∧ o = some t ∧ ∃ q, pathOf o = some q ∧ Written t q) ∨ ((o = none ∨ o = some []) ∧ pathOf o = none) := by
    intro o
    match o with
    | none => exact .inr ⟨.inl rfl, rfl⟩
    | some [] => exact .inr ⟨.inr rfl, rfl⟩
    | some (c :: t) => exact .inl ⟨c :: t, List.cons_ne_nil _ _, rfl, _, rfl, written_parse c t⟩
  unfold vmlinuxPath
  rcases path args.vmlinux with ⟨t, ht, hv, q, hq, hw⟩ | ⟨hv, hq⟩
  · rw [hq]
    simp only [Option.some.injEq]
    constructor
    · rintro rfl; exact .inl ⟨t, ht, hv, hw⟩
    · rintro (⟨t', -, hv', hw'⟩ | ⟨h, -⟩)
      · rw [hv] at hv'; cases hv'; exact written_unique hw hw'
      · rw [hv] at h
        rcases h with h | h
        · cases h
        · cases h; exact absurd rfl ht
  · rw [hq]
    simp only
    constructor
    · intro h
      rcases path args.kdir with ⟨t, ht, hk, k, hkp, hw⟩ | ⟨-, hkp⟩
      · rw [hkp] at h
        simp only [Option.map_some, Option.some.injEq] at h
        subst h
        exact .inr ⟨hv, t, k, ht, hk, hw, rfl, rfl⟩
      · rw [hkp] at h; cases h
    · rintro (⟨t, ht, hv', -⟩ | ⟨-, t, k, ht, hk, hw, ha, hp⟩)
      · rw [hv'] at hv
        rcases hv with h | h
        · cases h
        · cases h; exact absurd rfl ht
      · rcases path args.kdir with ⟨t', -, hk', k', hkp, hw'⟩ | ⟨h, -⟩
        · rw [hk] at hk'; cases hk'
          rw [hkp, written_unique hw' hw]
          obtain ⟨pa, pp⟩ := p
          simp only at ha hp
          rw [ha, hp]
          rfl
        · rw [hk] at h
          rcases h with h | h
          · cases h
          · cases h; exact absurd rfl ht

/-- **C88**: the image whose table is printed is VMLINUX, or the file `vmlinux` in KDIR if only that is given. -/
theorem C88_image (w : MWorld) (hw : Pythonic w) (help : Str) (args : Args) (s : MState)
    (h0 : (main w help args s).1 = .ok 0) (hb : ¬ BuildMode args) (hh : ¬ AsksForHelp args) :
    ∃ (p : Path) (e : Elf) (a0 : Arch) (ver : Ver) (hist : List Run) (entries : List (Nat × Nat)) (ref : Option Symbol)
      (code : Option Bytes) (cands located scs : List Syscall) (text : Str),
      IsImage args p ∧ (∀ q, IsImage args q → q = p) ∧ (∃ h, LoadedFrom w h p e) ∧
      Analysed w args p e a0 ver hist entries ref code cands located scs ∧
      outputSyscalls w.jinja w.css w.js ⟨ver, cs!"vmlinux", a0.adjustAbi e, scs⟩ args.format = .ok text ∧
      (main w help args s).2.out = some text := by
  obtain ⟨p, e, a0, ver, hist, entries, ref, code, cands, located, scs, text, h1, h2, h3⟩ := C88_run w hw help args s h0 hb hh
  refine ⟨p, e, a0, ver, hist, entries, ref, code, cands, located, scs, text, (vmlinuxPath_image _ _).1 h1.image.1, fun q hq => ?_,
    h1.image.2, h1, h2, h3⟩
  have := (vmlinuxPath_image _ _).2 hq
  rw [h1.image.1] at this
  cases this
  rfl

/-- KDIR alone -/
example : Pythonic tinySources ∧ (main tinySources [] { kdir := some cs!"/k" } {}).1 = .ok 0 ∧ ¬ BuildMode { kdir := some cs!"/k" } ∧
    ¬ AsksForHelp { kdir := some cs!"/k" } ∧ IsImage { kdir := some cs!"/k" } ⟨true, [cs!"k", cs!"vmlinux"]⟩ := by
  refine ⟨⟨?_, ?_⟩, by decide +kernel, by simp [BuildMode], by simp [AsksForHelp], (vmlinuxPath_image _ _).1 (by decide +kernel)⟩
  · intro l; exact .refl _
  · exact ⟨fun _ => .refl _, fun _ => .refl _⟩

end Verif
