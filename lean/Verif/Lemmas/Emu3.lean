import Verif.Lemmas.Emu2
import Verif.Lemmas.Py
import Mathlib.Data.List.Induction
import Mathlib.Logic.Relation
/-! # Lemmas about the switch analysis: the whole loop, execution, and collecting the result -/
set_option autoImplicit false

namespace Verif
open Spec

theorem lastCompare_some (r start stop : Nat) : ∀ (p : List Insn),
    (∀ i ∈ p, i.mnem = .cmp → ∃ v, i.ops = [.reg r, .imm v]) → (∃ k ∈ p, k.mnem = .cmp ∨ k.mnem = .test) →
    ∃ v, lastCompare p = some v := by
  intro p
  induction p using List.reverseRecOn with
  | nil => rintro _ ⟨k, hk, _⟩; simp at hk
  | append_singleton p i ih =>
    rintro h ⟨k, hk, hm⟩
    rw [lastCompare_snoc]
    cases hv : compareValue i with
    | some v => exact ⟨v, rfl⟩
    | none =>
      simp only [Option.none_or]
      apply ih (fun j hj => h j (by simp [hj]))
      rcases List.mem_append.1 hk with hk | hk
      · exact ⟨k, hk, hm⟩
      · simp at hk
        subst hk
        exfalso
        rcases hm with hm | hm
        · obtain ⟨v, hv'⟩ := h k (by simp) hm
          simp [compareValue, hm, hv'] at hv
        · simp [compareValue, hm] at hv

theorem supported_at (r start stop : Nat) (insns : List Insn) (hs : Supported r start stop insns) :
    ∀ p i q, insns = p ++ i :: q → SupportedAt r start stop p i ∧
      (i.mnem = .test → ∀ j q', q = j :: q' → j.mnem = .jcc .e ∨ j.mnem = .jcc .ne) := by
  intro p i q h
  obtain ⟨h1, h2, h3, h4⟩ := hs.2 p i q h
  refine ⟨⟨h1, fun hm => (h2 hm).1, fun c hm => ⟨(h3 c hm).1, ?_⟩, h4⟩, fun hm => (h2 hm).2⟩
  refine lastCompare_some r start stop p (fun j hj hm => ?_) (h3 c hm).2
  obtain ⟨a, b, rfl⟩ := List.append_of_mem hj
  exact (hs.2 a j (b ++ i :: q) (by simp [h])).1 hm

theorem numberReg_supported (r start stop : Nat) (insns : List Insn) (hs : Supported r start stop insns) :
    numberReg insns = some r := by
  have key : ∀ (l : List Insn), (∀ i ∈ l, (i.mnem = .cmp → ∃ v, i.ops = [.reg r, .imm v]) ∧ (i.mnem = .test → i.ops = [.reg r, .reg r])) →
      (∃ i ∈ l, i.mnem = .cmp ∨ i.mnem = .test) → numberReg l = some r := by
    intro l
    induction l with
    | nil => rintro _ ⟨i, hi, _⟩; simp at hi
    | cons i l ih =>
      rintro h ⟨k, hk, hm⟩
      by_cases hi : i.mnem = .cmp ∨ i.mnem = .test
      · rcases hi with hi | hi
        · obtain ⟨v, hv⟩ := (h i (by simp)).1 hi
          simp [numberReg, hi, hv, firstReg]
        · simp [numberReg, hi, (h i (by simp)).2 hi, firstReg]
      · simp only [numberReg, if_neg hi]
        apply ih (fun j hj => h j (by simp [hj]))
        rcases List.mem_cons.1 hk with rfl | hk
        · exact absurd hm hi
        · exact ⟨k, hk, hm⟩
  refine key insns (fun i hi => ?_) hs.1
  obtain ⟨a, b, hab⟩ := List.append_of_mem hi
  obtain ⟨h1, h2, _⟩ := hs.2 a i b hab
  exact ⟨h1, fun hm => (h2 hm).1⟩

/-- the loop over the passes, for supported instructions -/
theorem passLoop_spec (start stop r : Nat) (insns : List Insn) (hc : Contiguous start stop insns)
    (hs : Supported r start stop insns) (S : Nat → Nat → Prop)
    (hS : ∀ p i q, insns = p ++ i :: q → ∀ n x, S i.ip n → Flow p i n x → S x n) :
    ∀ (fuel : Nat) (nrs : Nrs) (cands : List Insn), Bounded nrs → (∀ x n, nrs x n = true → S x n) →
      (∀ c ∈ cands, c ∈ insns ∧ IsExit start stop c) →
      passLoop start stop r insns fuel nrs cands = .error .hang ∨
      ∃ nrs' cands', passLoop start stop r insns fuel nrs cands = .ok (some (nrs', cands')) ∧ Bounded nrs' ∧
        (∀ x n, nrs' x n = true → S x n) ∧ (∀ x n, nrs x n = true → nrs' x n = true) ∧ ClosedOn insns nrs' ∧
        (∀ c ∈ cands', c ∈ insns ∧ IsExit start stop c) ∧
        (∀ i ∈ insns, IsExit start stop i → ∃ c ∈ cands', c.key = i.key) := by
  intro fuel
  induction fuel with
  | zero => intro nrs cands _ _ _; exact .inl rfl
  | succ fuel ih =>
    intro nrs cands hb hin hcands
    obtain ⟨st', h1, h2, h3, h4, h5, h6, h7, h8⟩ := insnLoop_spec start stop r insns hc (supported_at r start stop insns hs) S hS
      insns [] ⟨nrs, cands, false, none, none, false⟩ rfl hb (by simp) rfl rfl hin
    have hcands' : ∀ c ∈ st'.cands, c ∈ insns ∧ IsExit start stop c := by
      intro c hc
      rcases h6 c hc with hc | hc
      · exact hcands c hc
      · exact hc
    cases hk : st'.keep with
    | false =>
      right
      refine ⟨st'.nrs, st'.cands, by simp [passLoop, h1, hk], h2, h3, h4, ?_, hcands', h8⟩
      exact (h5 hk (by intro a i b hab; simp at hab)).2
    | true =>
      have : passLoop start stop r insns (fuel + 1) nrs cands = passLoop start stop r insns fuel st'.nrs st'.cands := by
        simp [passLoop, h1, hk]
      rw [this]
      rcases ih st'.nrs st'.cands h2 h3 hcands' with h | ⟨n', c', g1, g2, g3, g4, g5, g6, g7⟩
      · exact .inl h
      · exact .inr ⟨n', c', g1, g2, g3, fun x n hx => g4 x n (h4 x n hx), g5, g6, g7⟩

/-- a number that flows is run -/
theorem flow_step (r start stop : Nat) (insns : List Insn) (hs : Supported r start stop insns) (hf : FlagsTextual r start insns)
    (p q : List Insn) (i : Insn) (n x : Nat) (h : insns = p ++ i :: q) (hr : ∃ f, Reach r start insns n (i.ip, f))
    (hfl : Flow p i n x) : ∃ f, Reach r start insns n (x, f) := by
  obtain ⟨f, hr⟩ := hr
  have hi : i ∈ insns := by simp [h]
  obtain ⟨h1, h2, h3, h4⟩ := hs.2 p i q h
  rcases hfl with ⟨hm | hm | hm, rfl⟩ | ⟨hm | hm, rfl⟩ | ⟨c, v, hm, hv, hx⟩
  · obtain ⟨v, hv⟩ := h1 hm
    exact ⟨_, .step _ _ hr (.cmp i v f hi hm hv)⟩
  · exact ⟨_, .step _ _ hr (.test i f hi hm (h2 hm).1)⟩
  · exact ⟨_, .step _ _ hr (.other i f hi hm)⟩
  · exact ⟨_, .step _ _ hr (.jmp i f hi hm)⟩
  · exact ⟨_, .step _ _ hr (.call i f hi hm)⟩
  · have := hf n f p i q c h hm hr
    rw [hv] at this
    subst this
    rcases hx with ⟨hh, rfl⟩ | ⟨hh, rfl⟩
    · exact ⟨_, .step _ _ hr (.taken i c v hi hm hh)⟩
    · exact ⟨_, .step _ _ hr (.fall i c v hi hm hh)⟩

/-- a number that is run flows -/
theorem step_flow (r start : Nat) (insns : List Insn) (hf : FlagsTextual r start insns) (n : Nat) (s s' : Nat × Option Nat)
    (hr : Reach r start insns n s) (h : Step r insns n s s') :
    ∃ p i q, insns = p ++ i :: q ∧ i.ip = s.1 ∧ Flow p i n s'.1 := by
  cases h with
  | cmp i v f hi hm _ =>
    obtain ⟨a, b, hab⟩ := List.append_of_mem hi
    exact ⟨a, i, b, hab, rfl, .inl ⟨.inl hm, rfl⟩⟩
  | test i f hi hm _ =>
    obtain ⟨a, b, hab⟩ := List.append_of_mem hi
    exact ⟨a, i, b, hab, rfl, .inl ⟨.inr (.inl hm), rfl⟩⟩
  | other i f hi hm =>
    obtain ⟨a, b, hab⟩ := List.append_of_mem hi
    exact ⟨a, i, b, hab, rfl, .inl ⟨.inr (.inr hm), rfl⟩⟩
  | jmp i f hi hm =>
    obtain ⟨a, b, hab⟩ := List.append_of_mem hi
    exact ⟨a, i, b, hab, rfl, .inr (.inl ⟨.inl hm, rfl⟩)⟩
  | call i f hi hm =>
    obtain ⟨a, b, hab⟩ := List.append_of_mem hi
    exact ⟨a, i, b, hab, rfl, .inr (.inl ⟨.inr hm, rfl⟩)⟩
  | taken i c v hi hm hh =>
    obtain ⟨a, b, hab⟩ := List.append_of_mem hi
    exact ⟨a, i, b, hab, rfl, .inr (.inr ⟨c, v, hm, (hf n _ a i b c hab hm hr).symm, .inl ⟨hh, rfl⟩⟩)⟩
  | fall i c v hi hm hh =>
    obtain ⟨a, b, hab⟩ := List.append_of_mem hi
    exact ⟨a, i, b, hab, rfl, .inr (.inr ⟨c, v, hm, (hf n _ a i b c hab hm hr).symm, .inr ⟨hh, rfl⟩⟩)⟩

/-- the analysis is exact -/
theorem emulate_exact (r start size : Nat) (insns : List Insn) (hc : Contiguous start (start + size) insns)
    (hs : Supported r start (start + size) insns) (hf : FlagsTextual r start insns) :
    ∃ nrs cands, emulate start size insns = .ok (some (nrs, cands)) ∧
      (∀ x n, nrs x n = true ↔ n < nrMax ∧ ∃ f, Reach r start insns n (x, f)) ∧
      (∀ c ∈ cands, c ∈ insns ∧ IsExit start (start + size) c) ∧
      (∀ i ∈ insns, IsExit start (start + size) i → ∃ c ∈ cands, c.key = i.key) := by
  have hem : emulate start size insns =
      passLoop start (start + size) r insns (passBound insns) (initialNrs start) [] := by
    simp [emulate, numberReg_supported r _ _ insns hs]
  rw [hem]
  have h := passLoop_spec start (start + size) r insns hc hs
    (fun x n => n < nrMax ∧ ∃ f, Reach r start insns n (x, f))
    (fun p i q hp n x hx hfl => ⟨hx.1, flow_step r start _ insns hs hf p q i n x hp hx.2 hfl⟩)
    (passBound insns) (initialNrs start) []
    (by
      intro x n h
      simp only [initialNrs, Bool.and_eq_true, decide_eq_true_eq] at h
      exact h.2)
    (by
      intro x n h
      simp only [initialNrs, Bool.and_eq_true, decide_eq_true_eq] at h
      obtain ⟨rfl, hn⟩ := h
      exact ⟨hn, none, .start⟩) (by simp)
  rcases h with h | ⟨nrs, cands, h1, h2, h3, h4, h5, h6, h7⟩
  · obtain ⟨res, hres⟩ := passLoop_ends start (start + size) r insns (passBound insns) (initialNrs start) []
      (by unfold passBound; omega)
    rw [hres _ (Nat.le_refl _)] at h
    exact absurd h (by simp)
  · refine ⟨nrs, cands, h1, fun x n => ⟨h3 x n, ?_⟩, h6, h7⟩
    rintro ⟨hn, f, hr⟩
    have : ∀ s, Reach r start insns n s → nrs s.1 n = true := by
      intro s hr
      induction hr with
      | start => exact h4 _ _ (by simp [initialNrs, hn])
      | step s s' hr hst ih =>
        obtain ⟨p, i, q, hp, hip, hfl⟩ := step_flow r start insns hf n s s' hr hst
        exact h5 p i q hp n _ (by rw [hip]; exact ih) hfl
    exact this _ hr

theorem contiguous_ip (start stop : Nat) (insns : List Insn) (hc : Contiguous start stop insns) :
    ∀ i ∈ insns, ∀ j ∈ insns, i.ip = j.ip → i = j := by
  intro i hi j hj h
  obtain ⟨a, b, rfl⟩ := List.append_of_mem hi
  obtain ⟨_, h2, _, h4, h5⟩ := contiguous_before _ _ _ _ _ hc
  rcases List.mem_append.1 hj with hj | hj
  · have := (h5 j hj).2
    omega
  · rcases List.mem_cons.1 hj with rfl | hj
    · rfl
    · obtain ⟨c, d, rfl⟩ := List.append_of_mem hj
      have := (contiguous_before _ _ _ _ _ h4).1
      omega

/-- where an instruction goes, as a function -/
noncomputable def nextOf (i : Insn) (n : Nat) (f : Option Nat) : Option (Nat × Option Nat) :=
  open Classical in
  match i.mnem with
  | .cmp => match i.ops with | [_, .imm v] => some (i.nextIp, some v) | _ => none
  | .test => some (i.nextIp, some 0)
  | .jmp => some (i.target, f)
  | .call => some (i.target, f)
  | .jcc c => match f with | some v => if CondHolds c n v then some (i.target, f) else some (i.nextIp, f) | none => none
  | .other => some (i.nextIp, f)
  | .ret => none

theorem step_nextOf (r : Nat) (insns : List Insn) (n : Nat) (s a : Nat × Option Nat) (h : Step r insns n s a) :
    ∃ i ∈ insns, i.ip = s.1 ∧ nextOf i n s.2 = some a := by
  cases h with
  | cmp i v f hi hm ho => exact ⟨i, hi, rfl, by simp [nextOf, hm, ho]⟩
  | test i f hi hm ho => exact ⟨i, hi, rfl, by simp [nextOf, hm]⟩
  | other i f hi hm => exact ⟨i, hi, rfl, by simp [nextOf, hm]⟩
  | jmp i f hi hm => exact ⟨i, hi, rfl, by simp [nextOf, hm]⟩
  | call i f hi hm => exact ⟨i, hi, rfl, by simp [nextOf, hm]⟩
  | taken i c v hi hm hh => exact ⟨i, hi, rfl, by simp [nextOf, hm, hh]⟩
  | fall i c v hi hm hh => exact ⟨i, hi, rfl, by simp [nextOf, hm, hh]⟩

theorem step_det (r start stop : Nat) (insns : List Insn) (hc : Contiguous start stop insns) (n : Nat)
    (s a b : Nat × Option Nat) (ha : Step r insns n s a) (hb : Step r insns n s b) : a = b := by
  obtain ⟨i, hi, hip, hia⟩ := step_nextOf _ _ _ _ _ ha
  obtain ⟨j, hj, hjp, hjb⟩ := step_nextOf _ _ _ _ _ hb
  have : i = j := contiguous_ip start stop insns hc i hi j hj (by rw [hip, hjp])
  subst this
  rw [hia] at hjb
  exact Option.some.inj hjb

/-- an inside address is never where the function is left; running stops outside -/
theorem step_inside (r start stop : Nat) (insns : List Insn) (hc : Contiguous start stop insns) (n : Nat)
    (s a : Nat × Option Nat) (h : Step r insns n s a) : start ≤ s.1 ∧ s.1 < stop := by
  have key : ∀ i ∈ insns, start ≤ i.ip ∧ i.ip < stop := by
    intro i hi
    obtain ⟨a, b, rfl⟩ := List.append_of_mem hi
    obtain ⟨h1, h2, h3, _⟩ := contiguous_before _ _ _ _ _ hc
    exact ⟨h1, by omega⟩
  cases h with
  | cmp i _ _ hi => exact key i hi
  | test i _ hi => exact key i hi
  | other i _ hi => exact key i hi
  | jmp i _ hi => exact key i hi
  | call i _ hi => exact key i hi
  | taken i _ _ hi => exact key i hi
  | fall i _ _ hi => exact key i hi

theorem reach_rtg (r start : Nat) (insns : List Insn) (n : Nat) (s : Nat × Option Nat) (h : Reach r start insns n s) :
    Relation.ReflTransGen (Step r insns n) (start, none) s := by
  induction h with
  | start => exact .refl
  | step s s' _ hst ih => exact .tail ih hst

/-- a number leaves the function to one place -/
theorem leaves_unique (r start stop : Nat) (insns : List Insn) (hc : Contiguous start stop insns) (n t t' : Nat)
    (h : LeavesTo r start stop insns n t) (h' : LeavesTo r start stop insns n t') : t = t' := by
  obtain ⟨⟨f, hr⟩, ho⟩ := h
  obtain ⟨⟨f', hr'⟩, ho'⟩ := h'
  have U : Relator.RightUnique (Step r insns n) := fun a b c hb hc' => step_det r start stop insns hc n a b c hb hc'
  rcases Relation.ReflTransGen.total_of_right_unique U (reach_rtg _ _ _ _ _ hr) (reach_rtg _ _ _ _ _ hr') with h | h
  · rcases Relation.ReflTransGen.cases_head h with h | ⟨x, hx, _⟩
    · exact congrArg Prod.fst h
    · exact absurd (step_inside r start stop insns hc n _ _ hx) ho
  · rcases Relation.ReflTransGen.cases_head h with h | ⟨x, hx, _⟩
    · exact (congrArg Prod.fst h).symm
    · exact absurd (step_inside r start stop insns hc n _ _ hx) ho'

/-- if the last instruction does not run on, functions are left by branches only -/
theorem leaves_by_branch (r start stop : Nat) (insns : List Insn) (hc : Contiguous start stop insns)
    (hl : ∀ pre l, insns = pre ++ [l] → l.mnem = .ret ∨ l.mnem = .jmp ∨ l.mnem = .call) (hne : insns ≠ [])
    (n t : Nat) (h : LeavesTo r start stop insns n t) : ∃ i ∈ insns, IsExit start stop i ∧ i.target = t := by
  obtain ⟨⟨f, hr⟩, ho⟩ := h
  have inside : start < stop := by
    cases insns with
    | nil => exact absurd rfl hne
    | cons i is =>
      obtain ⟨h1, h2, h3, _⟩ := contiguous_before stop [] start i is hc
      omega
  have nextIn : ∀ i ∈ insns, (i.mnem = .cmp ∨ i.mnem = .test ∨ i.mnem = .other ∨ ∃ c, i.mnem = .jcc c) →
      start ≤ i.nextIp ∧ i.nextIp < stop := by
    intro i hi hm
    obtain ⟨a, b, rfl⟩ := List.append_of_mem hi
    obtain ⟨h1, h2, h3, h4, _⟩ := contiguous_before _ _ _ _ _ hc
    cases b with
    | nil =>
      exfalso
      have := hl a i rfl
      rcases hm with hm | hm | hm | ⟨c, hm⟩ <;> simp [hm] at this
    | cons j b =>
      obtain ⟨g1, g2, g3, _⟩ := contiguous_before stop [] _ j b h4
      exact ⟨by omega, by omega⟩
  generalize hs : (t, f) = s at hr
  cases hr with
  | start =>
    exfalso
    simp only [Prod.mk.injEq] at hs
    exact ho ⟨by omega, by omega⟩
  | step s s' hr hst =>
    subst hs
    generalize hs : (t, f) = s' at hst
    have ht : t = s'.1 := by rw [← hs]
    clear hs
    subst ht
    cases hst with
    | cmp i v f hi hm => exact absurd (nextIn i hi (by simp [hm])) ho
    | test i f hi hm => exact absurd (nextIn i hi (by simp [hm])) ho
    | other i f hi hm => exact absurd (nextIn i hi (by simp [hm])) ho
    | fall i c v hi hm => exact absurd (nextIn i hi (by simp [hm])) ho
    | jmp i f hi hm => exact ⟨i, hi, ⟨.inl hm, ho⟩, rfl⟩
    | call i f hi hm => exact ⟨i, hi, ⟨.inr (.inl hm), ho⟩, rfl⟩
    | taken i c v hi hm => exact ⟨i, hi, ⟨.inr (.inr ⟨c, hm⟩), ho⟩, rfl⟩

/-- if no jump lands between a compare and a conditional jump, flags are those of the textually last compare -/
theorem fresh_flags (r start stop : Nat) (insns : List Insn) (hc : Contiguous start stop insns)
    (hs : Supported r start stop insns) (hf : FreshTargets insns) : FlagsTextual r start insns := by
  have pos : ∀ n s, Reach r start insns n s → ∀ pre i post, insns = pre ++ i :: post → i.ip = s.1 →
      s.2 = lastCompare pre ∨ Fresh (i :: post) := by
    have only : ∀ (k : Insn) pre i post, insns = pre ++ i :: post → k ∈ insns → i.ip = k.nextIp →
        ∃ pre', pre = pre' ++ [k] := by
      intro k pre i post h hk hip
      obtain ⟨a, b, hab⟩ := List.append_of_mem hk
      rw [hab] at hc
      obtain ⟨_, h2, h3, h4, _⟩ := contiguous_before _ _ _ _ _ hc
      rw [← hab] at hc
      cases b with
      | nil =>
        exfalso
        have e : k.nextIp = stop := h4
        rw [h] at hc
        obtain ⟨_, g2, g3, _⟩ := contiguous_before _ _ _ _ _ hc
        omega
      | cons j b =>
        have hj : j.ip = k.nextIp := h4.1
        have hi : i = j := contiguous_ip start stop insns hc i (by simp [h]) j (by simp [hab]) (by rw [hip, hj])
        subst hi
        refine ⟨a, ?_⟩
        have e : pre ++ i :: post = (a ++ [k]) ++ i :: b := by rw [← h, hab]; simp
        rcases List.append_eq_append_iff.1 e with ⟨c, hc1, hc2⟩ | ⟨c, hc1, hc2⟩
        · cases c with
          | nil => simpa using hc1.symm
          | cons x c =>
            exfalso
            have hx : x = i := by simp at hc2; exact hc2.1.symm
            subst hx
            rw [h] at hc
            obtain ⟨_, _, _, g4, g5⟩ := contiguous_before _ _ _ _ _ hc
            have : x ∈ post := by
              simp at hc2
              rw [hc2]; simp
            obtain ⟨u, w, hu⟩ := List.append_of_mem this
            rw [hu] at g4
            have := (contiguous_before _ _ _ _ _ g4).1
            omega
        · cases c with
          | nil => simpa using hc1
          | cons x c =>
            exfalso
            have hx : x = i := by simp at hc2; exact hc2.1.symm
            subst hx
            rw [h] at hc
            obtain ⟨_, _, _, g4, g5⟩ := contiguous_before _ _ _ _ _ hc
            have := g5 x (by rw [hc1]; simp)
            omega
    intro n s hr
    induction hr with
    | start =>
      intro pre i post h hip
      left
      cases pre with
      | nil => rfl
      | cons a pre =>
        exfalso
        rw [h] at hc
        have h1 : a.ip = start := hc.1
        have := ((contiguous_before _ _ _ _ _ hc).2.2.2.2 a (by simp)).2
        simp at hip
        omega
    | step s s' hr hst ih =>
      intro pre i post h hip
      cases hst with
      | cmp k v f hk hm ho =>
        obtain ⟨pre', rfl⟩ := only k pre i post h hk hip
        left
        rw [lastCompare_snoc]
        simp [compareValue, hm, ho]
      | test k f hk hm ho =>
        obtain ⟨pre', rfl⟩ := only k pre i post h hk hip
        left
        rw [lastCompare_snoc]
        simp [compareValue, hm]
      | other k f hk hm =>
        obtain ⟨pre', rfl⟩ := only k pre i post h hk hip
        rcases ih pre' k (i :: post) (by simp [h]) rfl with e | e
        · left
          rw [lastCompare_snoc, compareValue_jump k (by simp [hm]) (by simp [hm])]
          simpa using e
        · right
          simpa [Fresh, hm] using e
      | fall k c v hk hm hh =>
        obtain ⟨pre', rfl⟩ := only k pre i post h hk hip
        rcases ih pre' k (i :: post) (by simp [h]) rfl with e | e
        · left
          rw [lastCompare_snoc, compareValue_jump k (by simp [hm]) (by simp [hm])]
          simpa using e
        · simp [Fresh, hm] at e
      | jmp k f hk hm => exact .inr (hf k hk (.inl hm) pre i post h hip)
      | taken k c v hk hm hh => exact .inr (hf k hk (.inr ⟨c, hm⟩) pre i post h hip)
      | call k f hk hm =>
        exfalso
        obtain ⟨a, b, hab⟩ := List.append_of_mem hk
        have ho := (hs.2 a k b hab).2.2.2 hm
        rw [h] at hc
        obtain ⟨g1, g2, g3, _⟩ := contiguous_before _ _ _ _ _ hc
        simp at hip
        exact ho ⟨by omega, by omega⟩
  intro n f pre i post c h hm hr
  rcases pos n _ hr pre i post h rfl with e | e
  · exact e
  · simp [Fresh, hm] at e

/-! ## The candidate set -/

theorem addCand_nodup (cands : List Insn) (i : Insn) (h : (cands.map Insn.key).Nodup) : ((addCand cands i).map Insn.key).Nodup := by
  unfold addCand
  split
  · exact h
  · rename_i hk
    rw [List.map_append, List.nodup_append]
    refine ⟨h, by simp, ?_⟩
    intro k hkm k' hk' e
    simp at hk'
    subst hk'
    subst e
    obtain ⟨c, hc, hck⟩ := List.mem_map.1 hkm
    exact hk (List.any_eq_true.2 ⟨c, hc, by simpa using hck⟩)

theorem insnStep_cands (start stop r : Nat) (st st' : Pass) (i : Insn) (h : insnStep start stop r st i = some st')
    (hn : (st.cands.map Insn.key).Nodup) : (st'.cands.map Insn.key).Nodup := by
  have hb : ∀ (s : Pass) tk nt, s.cands = st.cands → ((branchTo start stop s i tk nt).cands.map Insn.key).Nodup := by
    intro s tk nt hs
    rw [(branchTo_rest start stop s i tk nt).2.2.2]
    split
    · rw [hs]; exact hn
    · rw [hs]; exact addCand_nodup _ _ hn
  unfold insnStep at h
  simp only at h
  split at h
  · exact absurd h (by simp)
  repeat' split at h
  all_goals first
    | (obtain rfl := Option.some.inj h; exact hn)
    | (obtain rfl := Option.some.inj h; exact hb _ _ _ rfl)
    | (obtain rfl := Option.some.inj h; split <;> exact hb _ _ _ rfl)
    | exact absurd h (by simp)

theorem insnLoop_cands (start stop r : Nat) : ∀ (is : List Insn) (st st' : Pass), insnLoop start stop r is st = some st' →
    (st.cands.map Insn.key).Nodup → (st'.cands.map Insn.key).Nodup := by
  intro is
  induction is with
  | nil =>
    intro st st' h hk
    obtain rfl := Option.some.inj h
    exact hk
  | cons i is ih =>
    intro st st' h hk
    unfold insnLoop at h
    split at h
    · exact absurd h (by simp)
    · rename_i st1 h1
      exact ih _ _ h (insnStep_cands _ _ _ _ _ _ h1 hk)

theorem passLoop_cands (start stop r : Nat) (insns : List Insn) : ∀ (fuel : Nat) (nrs : Nrs) (cands : List Insn) (nrs' : Nrs)
    (cands' : List Insn), passLoop start stop r insns fuel nrs cands = .ok (some (nrs', cands')) →
    (cands.map Insn.key).Nodup → (cands'.map Insn.key).Nodup := by
  intro fuel
  induction fuel with
  | zero => intro _ _ _ _ h; exact absurd h (by simp [passLoop])
  | succ fuel ih =>
    intro nrs cands nrs' cands' h hn
    unfold passLoop at h
    split at h
    · exact absurd h (by simp)
    · rename_i st h1
      have h2 := insnLoop_cands _ _ _ _ _ _ h1 hn
      split at h
      · exact ih _ _ _ _ h h2
      · simp only [Except.ok.injEq, Option.some.injEq, Prod.mk.injEq] at h
        rw [← h.2]
        exact h2

theorem emulate_cands (start size : Nat) (insns : List Insn) (nrs : Nrs) (cands : List Insn)
    (h : emulate start size insns = .ok (some (nrs, cands))) : (cands.map Insn.key).Nodup := by
  unfold emulate at h
  split at h
  · exact absurd h (by simp)
  · exact passLoop_cands _ _ _ _ _ _ _ _ _ h (by simp)

theorem countP_le_one (p : Insn → Bool) : ∀ (l : List Insn), (l.map Insn.key).Nodup →
    (∀ i ∈ l, ∀ j ∈ l, p i = true → p j = true → i.key = j.key) → l.countP p ≤ 1 := by
  intro l
  induction l with
  | nil => simp
  | cons i l ih =>
    intro hn h
    rw [List.map_cons, List.nodup_cons] at hn
    by_cases hi : p i = true
    · rw [List.countP_cons_of_pos hi]
      have : l.countP p = 0 := by
        rw [List.countP_eq_zero]
        intro j hj hpj
        exact hn.1 (List.mem_map.2 ⟨j, hj, (h i (by simp) j (by simp [hj]) hi hpj).symm⟩)
      omega
    · rw [List.countP_cons_of_neg hi]
      exact ih hn.2 fun a ha b hb => h a (by simp [ha]) b (by simp [hb])

/-! ## Collecting the result -/

theorem addNumbers_some (v : Nat) : ∀ (ns : List Nat) (d d' : Dict Nat Nat), addNumbers v ns d = some d' →
    (∀ n ∈ ns, ∀ w, dget n d = some w → w = v) ∧ (DNodup d → DNodup d') ∧
    ∀ m w, dget m d' = some w ↔ dget m d = some w ∨ (m ∈ ns ∧ w = v) := by
  intro ns
  induction ns with
  | nil =>
    intro d d' h
    obtain rfl := Option.some.inj h
    simp
  | cons n ns ih =>
    intro d d' h
    unfold addNumbers at h
    split at h
    · rename_i w hw
      split at h
      · exact absurd h (by simp)
      · rename_i hv
        simp only [ne_eq, Decidable.not_not] at hv
        subst hv
        obtain ⟨h1, h2, h3⟩ := ih _ _ h
        refine ⟨?_, h2, fun m x => ?_⟩
        · intro k hk x hx
          rcases List.mem_cons.1 hk with rfl | hk
          · rw [hw] at hx; exact (Option.some.inj hx).symm
          · exact h1 k hk x hx
        · rw [h3]
          constructor
          · rintro (e | ⟨e, rfl⟩)
            · exact .inl e
            · exact .inr ⟨by simp [e], rfl⟩
          · rintro (e | ⟨e, rfl⟩)
            · exact .inl e
            · rcases List.mem_cons.1 e with rfl | e
              · exact .inl hw
              · exact .inr ⟨e, rfl⟩
    · rename_i hw
      obtain ⟨h1, h2, h3⟩ := ih _ _ h
      refine ⟨?_, fun hd => h2 (hd.dset _ _), fun m x => ?_⟩
      · intro k hk x hx
        rcases List.mem_cons.1 hk with rfl | hk
        · rw [hw] at hx; exact absurd hx (by simp)
        · by_cases hkn : k = n
          · subst hkn; rw [hw] at hx; exact absurd hx (by simp)
          · exact h1 k hk x (by rw [dget_dset_ne _ _ hkn]; exact hx)
      · rw [h3]
        by_cases hmn : m = n
        · subst hmn
          rw [dget_dset_self, hw]
          simp [eq_comm]
        · rw [dget_dset_ne _ _ hmn]
          simp [hmn]

theorem addNumbers_isSome (v : Nat) : ∀ (ns : List Nat) (d : Dict Nat Nat),
    (∀ n ∈ ns, ∀ w, dget n d = some w → w = v) → ∃ d', addNumbers v ns d = some d' := by
  intro ns
  induction ns with
  | nil => intro d _; exact ⟨d, rfl⟩
  | cons n ns ih =>
    intro d h
    unfold addNumbers
    split
    · rename_i w hw
      have := h n (by simp) w hw
      subst this
      simp only [ne_eq, not_true, if_false]
      exact ih d fun k hk => h k (by simp [hk])
    · rename_i hw
      refine ih _ fun k hk w hw' => ?_
      by_cases hkn : k = n
      · subst hkn
        rw [dget_dset_self] at hw'
        exact (Option.some.inj hw').symm
      · rw [dget_dset_ne _ _ hkn] at hw'
        exact h k (by simp [hk]) w hw'

/-- more than a hundred numbers: taken for the default case -/
def bigAt (nrs : Nrs) (i : Insn) : Bool := decide (100 < (numbersAt nrs i.target).length)

/-- when the collection succeeds, starting from `d` -/
def Fits (nrs : Nrs) (cs : List Insn) (dflt : Bool) (d : Dict Nat Nat) : Prop :=
  (∀ i ∈ cs, numbersAt nrs i.target ≠ []) ∧
  cs.countP (bigAt nrs) + dflt.toNat ≤ 1 ∧
  (∀ i ∈ cs, bigAt nrs i = false → ∀ n ∈ numbersAt nrs i.target, ∀ w, dget n d = some w → w = i.target) ∧
  ∀ i ∈ cs, ∀ j ∈ cs, bigAt nrs i = false → bigAt nrs j = false → ∀ n, n ∈ numbersAt nrs i.target → n ∈ numbersAt nrs j.target →
    i.target = j.target

theorem collect_some (ord : List Nat → List Nat) (hord : ∀ l, (ord l).Perm l) (nrs : Nrs) :
    ∀ (cs : List Insn) (dflt : Bool) (d d' : Dict Nat Nat), collect ord nrs cs dflt d = some d' →
      Fits nrs cs dflt d ∧ (DNodup d → DNodup d') ∧
      ∀ m w, dget m d' = some w ↔ dget m d = some w ∨
        ∃ i ∈ cs, bigAt nrs i = false ∧ m ∈ numbersAt nrs i.target ∧ w = i.target := by
  intro cs
  induction cs with
  | nil =>
    intro dflt d d' h
    obtain rfl := Option.some.inj h
    refine ⟨⟨by simp, ?_, by simp, by simp⟩, id, by simp⟩
    cases dflt <;> simp
  | cons i cs ih =>
    intro dflt d d' h
    unfold collect at h
    simp only at h
    split at h
    · exact absurd h (by simp)
    rename_i hne
    have hne' : numbersAt nrs i.target ≠ [] := fun e => hne (by simp [e])
    split at h
    · rename_i hbig
      split at h
      · exact absurd h (by simp)
      · rename_i hd
        have hb : bigAt nrs i = true := by simp only [bigAt, decide_eq_true_eq]; omega
        obtain ⟨⟨f1, f2, f3, f4⟩, g2, g3⟩ := ih _ _ _ h
        refine ⟨⟨?_, ?_, ?_, ?_⟩, g2, fun m w => ?_⟩
        · intro j hj
          rcases List.mem_cons.1 hj with rfl | hj
          · exact hne'
          · exact f1 j hj
        · rw [List.countP_cons_of_pos hb]
          simp only [Bool.not_eq_true] at hd
          simp [hd] at f2 ⊢
          omega
        · intro j hj hjb
          rcases List.mem_cons.1 hj with rfl | hj
          · rw [hb] at hjb; exact absurd hjb (by decide)
          · exact f3 j hj hjb
        · intro j hj k hk hjb hkb
          rcases List.mem_cons.1 hj with rfl | hj
          · rw [hb] at hjb; exact absurd hjb (by decide)
          · rcases List.mem_cons.1 hk with rfl | hk
            · rw [hb] at hkb; exact absurd hkb (by decide)
            · exact f4 j hj k hk hjb hkb
        · rw [g3]
          constructor
          · rintro (h | ⟨j, hj, h⟩)
            · exact .inl h
            · exact .inr ⟨j, by simp [hj], h⟩
          · rintro (h | ⟨j, hj, h⟩)
            · exact .inl h
            · rcases List.mem_cons.1 hj with rfl | hj
              · rw [hb] at h; exact absurd h.1 (by decide)
              · exact .inr ⟨j, hj, h⟩
    · rename_i hbig
      split at h
      · exact absurd h (by simp)
      · rename_i d1 h1
        have hb : bigAt nrs i = false := by simp only [bigAt, decide_eq_false_iff_not]; omega
        obtain ⟨a1, a2, a3⟩ := addNumbers_some _ _ _ _ h1
        obtain ⟨⟨f1, f2, f3, f4⟩, g2, g3⟩ := ih _ _ _ h
        have hmem : ∀ n, n ∈ ord (numbersAt nrs i.target) ↔ n ∈ numbersAt nrs i.target := fun n => (hord _).mem_iff
        have hij : ∀ j ∈ cs, bigAt nrs j = false → ∀ n, n ∈ numbersAt nrs i.target → n ∈ numbersAt nrs j.target →
            i.target = j.target := fun j hj hjb n hn hn' =>
          f3 j hj hjb n hn' i.target ((a3 n _).2 (.inr ⟨(hmem n).2 hn, rfl⟩))
        refine ⟨⟨?_, ?_, ?_, ?_⟩, fun hd => g2 (a2 hd), fun m w => ?_⟩
        · intro j hj
          rcases List.mem_cons.1 hj with rfl | hj
          · exact hne'
          · exact f1 j hj
        · rw [List.countP_cons_of_neg (by simp [hb])]
          exact f2
        · intro j hj hjb n hn w hw
          rcases List.mem_cons.1 hj with rfl | hj
          · exact a1 n ((hmem n).2 hn) w hw
          · exact f3 j hj hjb n hn w ((a3 n w).2 (.inl hw))
        · intro j hj k hk hjb hkb n hn hn'
          rcases List.mem_cons.1 hj with rfl | hj2
          · rcases List.mem_cons.1 hk with rfl | hk2
            · rfl
            · exact hij k hk2 hkb n hn hn'
          · rcases List.mem_cons.1 hk with rfl | hk2
            · exact (hij j hj2 hjb n hn' hn).symm
            · exact f4 j hj2 k hk2 hjb hkb n hn hn'
        · rw [g3, a3, hmem]
          constructor
          · rintro ((h | ⟨h, rfl⟩) | ⟨j, hj, h⟩)
            · exact .inl h
            · exact .inr ⟨i, by simp, hb, h, rfl⟩
            · exact .inr ⟨j, by simp [hj], h⟩
          · rintro (h | ⟨j, hj, h1, h2, rfl⟩)
            · exact .inl (.inl h)
            · rcases List.mem_cons.1 hj with rfl | hj
              · exact .inl (.inr ⟨h2, rfl⟩)
              · exact .inr ⟨j, hj, h1, h2, rfl⟩

theorem collect_isSome (ord : List Nat → List Nat) (hord : ∀ l, (ord l).Perm l) (nrs : Nrs) :
    ∀ (cs : List Insn) (dflt : Bool) (d : Dict Nat Nat), Fits nrs cs dflt d → ∃ d', collect ord nrs cs dflt d = some d' := by
  intro cs
  induction cs with
  | nil => intro dflt d _; exact ⟨d, rfl⟩
  | cons i cs ih =>
    rintro dflt d ⟨f1, f2, f3, f4⟩
    unfold collect
    simp only
    rw [if_neg (fun e => f1 i (by simp) (List.length_eq_zero_iff.1 e))]
    cases hb : bigAt nrs i with
    | true =>
      have hbig : (numbersAt nrs i.target).length > 100 := by simpa [bigAt] using hb
      rw [if_pos hbig]
      rw [List.countP_cons_of_pos hb] at f2
      have hd : dflt = false := by cases dflt <;> simp at f2 ⊢
      subst hd
      simp only [Bool.false_eq_true, if_false]
      refine ih true d ⟨fun j hj => f1 j (by simp [hj]), ?_, fun j hj => f3 j (by simp [hj]),
        fun j hj k hk => f4 j (by simp [hj]) k (by simp [hk])⟩
      simp at f2 ⊢
      omega
    | false =>
      have hbig : ¬ (numbersAt nrs i.target).length > 100 := by
        simp only [bigAt, decide_eq_false_iff_not] at hb
        omega
      rw [if_neg hbig]
      have hmem : ∀ n, n ∈ ord (numbersAt nrs i.target) ↔ n ∈ numbersAt nrs i.target := fun n => (hord _).mem_iff
      obtain ⟨d1, h1⟩ := addNumbers_isSome i.target (ord (numbersAt nrs i.target)) d
        (fun n hn => f3 i (by simp) hb n ((hmem n).1 hn))
      obtain ⟨a1, a2, a3⟩ := addNumbers_some _ _ _ _ h1
      rw [h1]
      refine ih dflt d1 ⟨fun j hj => f1 j (by simp [hj]), ?_, ?_, fun j hj k hk => f4 j (by simp [hj]) k (by simp [hk])⟩
      · rwa [List.countP_cons_of_neg (by simp [hb])] at f2
      · intro j hj hjb n hn w hw
        rcases (a3 n w).1 hw with hw | ⟨hn', rfl⟩
        · exact f3 j (by simp [hj]) hjb n hn w hw
        · exact f4 i (by simp) j (by simp [hj]) hb hjb n ((hmem n).1 hn') hn

theorem fits_perm (nrs : Nrs) (cs cs' : List Insn) (h : cs.Perm cs') (dflt : Bool) (d : Dict Nat Nat)
    (hf : Fits nrs cs dflt d) : Fits nrs cs' dflt d := by
  obtain ⟨f1, f2, f3, f4⟩ := hf
  exact ⟨fun i hi => f1 i (h.mem_iff.2 hi), by rw [← h.countP_eq]; exact f2, fun i hi => f3 i (h.mem_iff.2 hi),
    fun i hi j hj => f4 i (h.mem_iff.2 hi) j (h.mem_iff.2 hj)⟩

end Verif
