import Verif.Lemmas.Extract
/-! # Lemmas on the extraction of syscalls, continued -/
set_option autoImplicit false

namespace Verif
open Spec

theorem forall2_mem_left {α β : Type} {R : α → β → Prop} {as : List α} {bs : List β} (h : List.Forall₂ R as bs)
    {a : α} (ha : a ∈ as) : ∃ b ∈ bs, R a b := by
  induction h with
  | nil => simp at ha
  | cons hab _ ih =>
    rcases List.mem_cons.1 ha with rfl | ha
    · exact ⟨_, by simp, hab⟩
    · obtain ⟨b, hb, hr⟩ := ih ha
      exact ⟨b, by simp [hb], hr⟩

theorem forall2_mem_right {α β : Type} {R : α → β → Prop} {as : List α} {bs : List β} (h : List.Forall₂ R as bs)
    {b : β} (hb : b ∈ bs) : ∃ a ∈ as, R a b := by
  induction h with
  | nil => simp at hb
  | cons hab _ ih =>
    rcases List.mem_cons.1 hb with rfl | hb
    · exact ⟨_, by simp, hab⟩
    · obtain ⟨a, ha, hr⟩ := ih hb
      exact ⟨a, by simp [ha], hr⟩

theorem forall2_pairwise {α β : Type} {R : α → β → Prop} {S : α → α → Prop} {T : β → β → Prop} {as : List α} {bs : List β}
    (h : List.Forall₂ R as bs) (hs : as.Pairwise S) (hi : ∀ a b a' b', R a b → R a' b' → S a a' → T b b') :
    bs.Pairwise T := by
  induction h with
  | nil => exact .nil
  | cons hab hrest ih =>
    rw [List.pairwise_cons] at hs ⊢
    refine ⟨?_, ih hs.2⟩
    intro b' hb'
    obtain ⟨a', ha', hr⟩ := forall2_mem_right hrest hb'
    exact hi _ _ _ _ hab hr (hs.1 a' ha')

theorem keepFinal_iff (kdir : Option Path) (sc : Syscall) (b : Bool) (h : keepFinal kdir sc = .ok b) :
    b = true ↔ ¬ BadNi kdir sc := by
  unfold keepFinal at h
  unfold BadNi
  split at h
  · next hc =>
    simp only [Bool.and_eq_true, Bool.not_eq_true'] at hc
    split at h
    · next hf =>
      simp only [Except.ok.injEq] at h
      subst h
      simp [hf]
    · next f hf =>
      simp only [bind, Except.bind] at h
      split at h
      · cases h
      · next r hr =>
        simp only [Except.ok.injEq] at h
        subst h
        simp only [hc, hf, true_and, Option.some.injEq, Bool.not_eq_true', isSysNi]
        constructor
        · rintro h ⟨f', r', rfl, h2, h3⟩
          rw [hr] at h2
          cases h2
          rw [(endsWith_iff _ _).2 h3] at h
          cases h
        · intro hno
          cases hb : endsWith r.parts [cs!"kernel", cs!"sys_ni.c"] with
          | false => rfl
          | true => exact absurd ⟨f, r, rfl, hr, (endsWith_iff _ _).1 hb⟩ hno
  · next hc =>
    simp only [Except.ok.injEq] at h
    subst h
    simp only [Bool.and_eq_true, Bool.not_eq_true', not_and] at hc
    simp only [true_iff, not_and]
    intro h1 h2
    exact absurd h2 (hc h1)

/-- what a successful extraction went through -/
structure Extraction (a : Arch) (e : Elf) (v : Ver) (env : KEnv) (entries : List (Nat × Nat)) (out : List Syscall)
    (cands located signed : List Syscall) : Prop where
  cands_ok : candidateSyscalls a e v (env.niOrder e.niSyscalls) entries = .ok cands
  located_ok : env.locate cands = .ok located
  signed_ok : extractSignatures env.files e env.kdir.isSome located = .ok signed
  out_ok : filterRes (keepFinal env.kdir) signed = .ok out

theorem extraction_of_ok (a0 : Arch) (e : Elf) (v : Ver) (env : KEnv) (entries : List (Nat × Nat)) (out : List Syscall)
    (hb : a0.bits32 = e.bits32) (he : tableEntries (a0.adjustAbi e) e env = .ok entries) (hne : entries ≠ [])
    (hni : e.niSyscalls ≠ []) (h : extractSyscalls a0 e v env = .ok out) :
    ∃ cands located signed, Extraction (a0.adjustAbi e) e v env entries out cands located signed := by
  have h1 : entries.isEmpty = false := by cases entries with | nil => exact absurd rfl hne | cons => rfl
  have h2 : e.niSyscalls.isEmpty = false := by
    cases hx : e.niSyscalls with | nil => exact absurd hx hni | cons => rfl
  simp only [extractSyscalls, hb, ne_eq, not_true_eq_false, if_false, he, bind, Except.bind, h1, h2, Bool.false_eq_true] at h
  split at h
  · cases h
  next cands hc =>
  split at h
  · cases h
  next located hl =>
  split at h
  · cases h
  next signed hs =>
  exact ⟨cands, located, signed, hc, hl, hs, h⟩

/-- without entries or ni_syscall functions, or on a word size mismatch, nothing is extracted -/
theorem extract_cases (a0 : Arch) (e : Elf) (v : Ver) (env : KEnv) (out : List Syscall)
    (h : extractSyscalls a0 e v env = .ok out) :
    out = [] ∨ ∃ entries, a0.bits32 = e.bits32 ∧ tableEntries (a0.adjustAbi e) e env = .ok entries ∧ entries ≠ [] ∧
      e.niSyscalls ≠ [] := by
  unfold extractSyscalls at h
  split at h
  · left; cases h; rfl
  · next hb =>
    simp only [bind, Except.bind] at h
    split at h
    · cases h
    · next entries he =>
      split at h
      · left; cases h; rfl
      · next h1 =>
        split at h
        · left; cases h; rfl
        · next h2 =>
          right
          refine ⟨entries, by simpa using hb, he, ?_, ?_⟩
          · rintro rfl; exact h1 rfl
          · intro h3; rw [h3] at h2; exact h2 rfl

theorem tableEntries_keys (a : Arch) (e : Elf) (env : KEnv) (hok : EnvOk env e) (entries : List (Nat × Nat))
    (h : tableEntries a e env = .ok entries) : (entries.map Prod.fst).Nodup := by
  unfold tableEntries at h
  split at h
  · simp only [bind, Except.bind] at h
    split at h
    · cases h
    · cases h
      rw [enumerate_keys]
      exact List.nodup_range
  · exact hok.keys _ h

theorem relocated_fields {sc sc' : Syscall} (h : Relocated sc sc') :
    sc'.index = sc.index ∧ sc'.number = sc.number ∧ sc'.name = sc.name ∧ sc'.origname = sc.origname ∧
    sc'.symbol = sc.symbol ∧ sc'.kconfig = sc.kconfig ∧ sc'.esoteric = sc.esoteric ∧ sc'.signature = sc.signature := by
  unfold Relocated at h
  rw [h]
  exact ⟨rfl, rfl, rfl, rfl, rfl, rfl, rfl, rfl⟩

theorem resigned_fields {sc sc' : Syscall} (h : Resigned sc sc') :
    sc'.index = sc.index ∧ sc'.number = sc.number ∧ sc'.name = sc.name ∧ sc'.origname = sc.origname ∧
    sc'.symbol = sc.symbol ∧ sc'.kconfig = sc.kconfig ∧ sc'.esoteric = sc.esoteric ∧ sc'.file = sc.file ∧
    sc'.line = sc.line ∧ sc'.goodLocation = sc.goodLocation := by
  unfold Resigned at h
  rw [h]
  exact ⟨rfl, rfl, rfl, rfl, rfl, rfl, rfl, rfl, rfl, rfl⟩

theorem badNi_resigned {kdir : Option Path} {sc sc' : Syscall} (h : Resigned sc sc') : BadNi kdir sc' ↔ BadNi kdir sc := by
  obtain ⟨-, -, -, -, -, -, h1, h2, h3, h4⟩ := resigned_fields h
  unfold BadNi
  rw [h1, h2, h4]

theorem extractSignatures_resigned (fs : Files) (e : Elf) (hs : Bool) (l l' : List Syscall)
    (h : extractSignatures fs e hs l = .ok l') : List.Forall₂ Resigned l l' := by
  obtain ⟨metas, -, hf⟩ := C52_signature_priority fs e hs l l' h
  refine forall2_imp ?_ hf
  rintro a b ⟨src, -, hb⟩
  unfold Resigned
  rw [hb]

/-- facts about the syscalls before locations are looked up -/
theorem candidates_facts (a : Arch) (e : Elf) (v : Ver) (niOrder : List Symbol) (entries : List (Nat × Nat))
    (hk : (entries.map Prod.fst).Nodup) (out : List Syscall) (ps : List Str) (eso : List Esoteric)
    (esoScs : List Syscall) (niRef : Option Symbol) (niCode : Option Bytes)
    (hc : Candidates a e v niOrder entries out ps eso esoScs niRef niCode) :
    (∀ sc, sc ∈ out ↔ a.isDummy sc.symbol e niRef niCode = .ok false ∧
      ((∃ i va sym, (i, va) ∈ entries ∧ dget va (symbolsByVaddr a e niOrder (entries.map Prod.snd)) = some sym ∧
          sym ∉ e.niSyscalls ∧ a.slot i = some sc.number ∧ sc = makeSyscall a v ps i sym) ∨ sc ∈ esoScs)) ∧
    (out.filter (fun sc => !sc.esoteric)).Pairwise (fun x y => x.number < y.number) ∧
    out.Pairwise (fun x y => ∀ i, x.index = some i → y.index ≠ some i) := by
  have hsorted : (implSyms a e niOrder entries).Pairwise fun x y => x.1 < y.1 :=
    (resolved_pairwise _ _ (sortEntries_pairwise entries hk)).sublist List.filter_sublist
  have hsub := filterRes_sublist _ _ _ hc.filtered
  have hflags := esoteric_flags e eso esoScs hc.esoScs_ok
  refine ⟨?_, ?_, ?_⟩
  · intro sc
    rw [filterRes_mem _ _ _ hc.filtered, List.mem_append, buildSyscalls_mem]
    have hd : (do let d ← a.isDummy sc.symbol e niRef niCode; .ok (!d) : Res Bool) = .ok true ↔
        a.isDummy sc.symbol e niRef niCode = .ok false := by
      cases hx : a.isDummy sc.symbol e niRef niCode with
      | error x => simp [bind, Except.bind]
      | ok b => cases b <;> simp [bind, Except.bind]
    rw [hd, and_comm]
    refine and_congr_right fun _ => or_congr_left ?_
    constructor
    · rintro ⟨i, s, h1, h2, h3⟩
      obtain ⟨va, h4, h5, h6⟩ := (mem_implSyms a e niOrder entries i s).1 h1
      exact ⟨i, va, s, h4, h5, h6, h3, h2⟩
    · rintro ⟨i, va, s, h4, h5, h6, h3, h2⟩
      exact ⟨i, s, (mem_implSyms a e niOrder entries i s).2 ⟨va, h4, h5, h6⟩, h2, h3⟩
  · have h1 : (out.filter fun sc => !sc.esoteric).Sublist
        ((buildSyscalls a v ps (implSyms a e niOrder entries) ++ esoScs).filter fun sc => !sc.esoteric) := hsub.filter _
    rw [List.filter_append] at h1
    have h2 : esoScs.filter (fun sc => !sc.esoteric) = [] := by
      rw [List.filter_eq_nil_iff]
      intro sc hsc
      simp [(hflags sc hsc).1]
    rw [h2, List.append_nil] at h1
    exact ((buildSyscalls_pairwise a v ps _ hsorted).sublist List.filter_sublist).sublist h1
  · refine List.Pairwise.sublist hsub ?_
    rw [List.pairwise_append]
    refine ⟨?_, ?_, ?_⟩
    · unfold buildSyscalls
      apply List.Pairwise.sublist List.filter_sublist
      rw [List.pairwise_map]
      refine hsorted.imp ?_
      intro x y hxy i h1 h2
      simp only [makeSyscall, Syscall.new, Option.some.injEq] at h1 h2
      omega
    · refine pairwise_imp_mem (R := fun _ _ => True) (List.pairwise_of_forall (by simp)) ?_
      intro x hx y hy _ i h
      rw [(hflags x hx).2] at h
      cases h
    · intro x hx y hy i h
      rw [(hflags y hy).2]
      simp

end Verif
