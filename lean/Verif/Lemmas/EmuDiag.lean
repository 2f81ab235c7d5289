import Verif.Spec.EmuDiag
import Verif.Lemmas.Diag
import Verif.Lemmas.LocDiag
import Verif.Props.X86Emu
/-! # Helper lemmas: the messages of the switch analysis -/
set_option autoImplicit false

namespace Verif
open Spec

/-! ## The outcome is not changed -/

theorem refuse_snd {α : Type} (f : Str) (as : List LogArg) : (refuse f as : LM (Option α)).2 = .ok none := rfl
theorem refuse_fst {α : Type} (f : Str) (as : List LogArg) : (refuse f as : LM (Option α)).1 = [⟨.error, f, as⟩] := rfl

theorem insnStepL_snd (text : Insn → Str) (f : Str) (start stop r : Nat) (st : Pass) (i : Insn) :
    (insnStepL text f start stop r st i).2 = .ok (insnStep start stop r st i) := by
  unfold insnStepL insnStep
  simp only
  split
  · rfl
  cases i.mnem with
  | ret => rfl
  | test =>
    rcases i.ops with _ | ⟨a, _ | ⟨b, _⟩⟩
    · rfl
    · cases a <;> rfl
    · cases a <;> cases b <;> rfl
  | cmp =>
    simp only
    rcases cmpOperands i.ops with _ | ⟨q, _ | ⟨_ | _ | _⟩, inv⟩
    · rfl
    · rfl
    · rfl
    · simp only
      split <;> rfl
    · rfl
  | jmp => rfl
  | jcc c =>
    simp only
    split
    · rfl
    · cases st.last <;> rfl
  | call =>
    simp only
    split <;> rfl
  | other => rfl

theorem insnLoopL_snd (text : Insn → Str) (f : Str) (start stop r : Nat) : ∀ (is : List Insn) (st : Pass),
    (insnLoopL text f start stop r is st).2 = .ok (insnLoop start stop r is st) := by
  intro is
  induction is with
  | nil => intro st; rfl
  | cons i is ih =>
    intro st
    unfold insnLoopL insnLoop
    rw [lm_bind_snd, insnStepL_snd, res_ok_bind]
    cases insnStep start stop r st i with
    | none => rfl
    | some st' => exact ih st'

theorem passLoopL_snd (text : Insn → Str) (f : Str) (start stop r : Nat) (insns : List Insn) : ∀ (fuel : Nat) (nrs : Nrs) (cands : List Insn),
    (passLoopL text f start stop r insns fuel nrs cands).2 = passLoop start stop r insns fuel nrs cands := by
  intro fuel
  induction fuel with
  | zero => intros; rfl
  | succ fuel ih =>
    intro nrs cands
    unfold passLoopL passLoop
    rw [lm_bind_snd, insnLoopL_snd, res_ok_bind]
    cases insnLoop start stop r insns ⟨nrs, cands, false, none, none, false⟩ with
    | none => rfl
    | some st =>
      simp only
      split
      · exact ih _ _
      · rfl

theorem emulateL_snd (text : Insn → Str) (f : Str) (start size : Nat) (insns : List Insn) :
    (emulateL text f start size insns).2 = emulate start size insns := by
  unfold emulateL emulate
  cases numberReg insns with
  | none => rfl
  | some r => exact passLoopL_snd ..

theorem addNumbersL_snd (vaddr : Nat) : ∀ (ns : List Nat) (d : Dict Nat Nat),
    (addNumbersL vaddr ns d).2 = .ok (addNumbers vaddr ns d) := by
  intro ns
  induction ns with
  | nil => intro d; rfl
  | cons n ns ih =>
    intro d
    unfold addNumbersL addNumbers
    cases dget n d with
    | none => exact ih _
    | some v =>
      simp only
      split
      · rfl
      · exact ih _

theorem collectL_snd (text : Insn → Str) (numOrder : List Nat → List Nat) (nrs : Nrs) : ∀ (is : List Insn) (dflt : Bool) (d : Dict Nat Nat),
    (collectL text numOrder nrs is dflt d).2 = .ok (collect numOrder nrs is dflt d) := by
  intro is
  induction is with
  | nil => intros; rfl
  | cons i is ih =>
    intro dflt d
    unfold collectL collect
    simp only
    split
    · rfl
    split
    · split
      · rfl
      · exact ih _ _
    · rw [lm_bind_snd, addNumbersL_snd, res_ok_bind]
      cases addNumbers i.target (numOrder (numbersAt nrs i.target)) d with
      | none => rfl
      | some d' => exact ih _ _

theorem extractVaddrsL_snd (text : Insn → Str) (x : X86Env) (a : Arch) (e : Elf) :
    (extractVaddrsL text x a e).2 = extractVaddrs x a e := by
  unfold extractVaddrsL extractVaddrs
  split
  · rfl
  rw [lm_bind_snd, lm_lift_snd]
  cases pyAssert a.tableName.isNone with
  | error ex => rfl
  | ok u =>
  simp only [res_ok_bind]
  cases dget (a.abi ++ cs!"_sys_call") e.functions with
  | none => rfl
  | some sym =>
  simp only
  split
  · rfl
  rw [lm_bind_snd, lm_lift_snd]
  cases e.readSymbol sym with
  | error ex => rfl
  | ok code =>
  simp only [res_ok_bind]
  rw [lm_bind_snd, emulateL_snd]
  cases emulate sym.realVaddr sym.size (x.decode a.bits32 code sym.realVaddr) with
  | error ex => rfl
  | ok res =>
  simp only [res_ok_bind]
  cases res with
  | none => rfl
  | some p =>
  obtain ⟨nrs, cands⟩ := p
  simp only
  rw [lm_bind_snd, collectL_snd, res_ok_bind]
  cases collect x.numOrder nrs (x.candOrder cands) false [] <;> rfl

/-! ## What is shown at one instruction -/

/-- what the loop knows after the instructions `pre` of the current pass -/
structure KnowsAfter (pre : List Insn) (st : Pass) : Prop where
  prev : st.prev = pre.getLast?.map Insn.mnem
  last : st.last = none ↔ ∀ k ∈ pre, k.mnem ≠ .cmp ∧ k.mnem ≠ .test

theorem cmpOperands_imm (ops : List Operand) (r v : Nat) (inv : Bool) (h : cmpOperands ops = some (r, some (.imm v), inv)) :
    ∃ rest, ops = .reg r :: .imm v :: rest ∨ ops = .imm v :: .reg r :: rest := by
  unfold cmpOperands at h
  split at h
  · rename_i q os
    simp only [Option.some.injEq, Prod.mk.injEq] at h
    obtain ⟨rfl, h2, _⟩ := h
    cases os with
    | nil => simp at h2
    | cons o os =>
      simp only [List.head?_cons, Option.some.injEq] at h2
      subst h2
      exact ⟨os, .inl rfl⟩
  · rename_i o q os _
    simp only [Option.some.injEq, Prod.mk.injEq] at h
    obtain ⟨rfl, h2, _⟩ := h
    subst h2
    exact ⟨os, .inr rfl⟩
  · cases h

theorem cmpOperands_of (ops rest : List Operand) (r v : Nat) (h : ops = .reg r :: .imm v :: rest ∨ ops = .imm v :: .reg r :: rest) :
    ∃ inv, cmpOperands ops = some (r, some (.imm v), inv) := by
  rcases h with rfl | rfl
  · exact ⟨_, rfl⟩
  · exact ⟨_, rfl⟩

theorem branchTo_after (start stop : Nat) (st : Pass) (i : Insn) (a b : Nat → Bool) :
    (branchTo start stop st i a b).prev = st.prev ∧ (branchTo start stop st i a b).last = st.last := ⟨rfl, rfl⟩

theorem after_step (pre : List Insn) (st st' : Pass) (i : Insn) (h : KnowsAfter pre st) (hp : st'.prev = some i.mnem)
    (hl : st'.last = none ↔ (st.last = none ∧ i.mnem ≠ .cmp ∧ i.mnem ≠ .test)) : KnowsAfter (pre ++ [i]) st' := by
  refine ⟨by simp [hp], ?_⟩
  rw [hl, h.last]
  constructor
  · rintro ⟨h1, h2⟩ k hk
    rcases List.mem_append.1 hk with hk | hk
    · exact h1 k hk
    · rw [List.mem_singleton.1 hk]
      exact h2
  · intro hk
    exact ⟨fun k h => hk k (by simp [h]), hk i (by simp)⟩

/-- an instruction is either dealt with, silently, or stops the analysis, with a reason -/
theorem insnStepL_either (text : Insn → Str) (f : Str) (start stop r : Nat) (pre : List Insn) (st : Pass) (i : Insn) (h : KnowsAfter pre st) :
    (∃ st', insnStep start stop r st i = some st' ∧ (insnStepL text f start stop r st i).1 = [] ∧ KnowsAfter (pre ++ [i]) st' ∧
      ∀ m, ¬ Stops text f start stop r pre i m) ∨
    (insnStep start stop r st i = none ∧ ∃ m, Stops text f start stop r pre i m ∧
      said (insnStepL text f start stop r st i).1 = [(.error, some m)]) := by
  unfold insnStep insnStepL
  simp only
  by_cases ht : st.prev = some .test ∧ ¬ (i.mnem = .jcc .e ∨ i.mnem = .jcc .ne)
  · right
    rw [if_pos ht, if_pos ht]
    refine ⟨rfl, _, ?_, rfl⟩
    rw [h.prev] at ht
    obtain ⟨h1, h2⟩ := ht
    rw [not_or] at h2
    cases hg : pre.getLast? with
    | none => rw [hg] at h1; cases h1
    | some t =>
      rw [hg] at h1
      have := Stops.afterTest (text := text) (func := f) (start := start) (stop := stop) (r := r) t hg (Option.some.inj h1) h2.1 h2.2
      simpa [pyFormat, hexRepr] using this
  rw [if_neg ht, if_neg ht]
  have hnt : ∀ t, pre.getLast? = some t → t.mnem = .test → i.mnem ≠ .jcc .e → i.mnem ≠ .jcc .ne → False := by
    intro t hg hm h1 h2
    apply ht
    rw [h.prev, hg]
    exact ⟨by simp [hm], by simp [h1, h2]⟩
  cases hm : i.mnem with
  | ret =>
    refine .inl ⟨_, rfl, rfl, after_step pre st _ i h (by simp [hm]) (by simp [hm]), fun m hs => ?_⟩
    cases hs with
    | afterTest t hg h1 h2 h3 => exact hnt t hg h1 h2 h3
    | _ => simp_all
  | test =>
    simp only
    have bad : (∀ a b rest, i.ops ≠ .reg a :: .reg b :: rest) → ∃ m, Stops text f start stop r pre i m ∧
        said [⟨.error, cs!"Unsupported TEST instruction %#x: %r", [.int i.ip, .insn (text i)]⟩] = [(.error, some m)] := fun ho =>
      ⟨_, Stops.test hm ho, by simp [said, LogCall.text, pyFormat, hexRepr]⟩
    rcases ho : i.ops with _ | ⟨a, _ | ⟨b, rest⟩⟩
    · exact .inr ⟨rfl, bad (by simp [ho])⟩
    · cases a <;> exact .inr ⟨rfl, bad (by simp [ho])⟩
    · cases a with
      | imm v => exact .inr ⟨rfl, bad (by simp [ho])⟩
      | other => exact .inr ⟨rfl, bad (by simp [ho])⟩
      | reg a =>
        cases b with
        | imm v => exact .inr ⟨rfl, bad (by simp [ho])⟩
        | other => exact .inr ⟨rfl, bad (by simp [ho])⟩
        | reg b =>
          refine .inl ⟨_, rfl, rfl, after_step pre st _ i h (by simp [hm]) (by simp [hm]), fun m hs => ?_⟩
          cases hs with
          | afterTest t hg h1 h2 h3 => exact hnt t hg h1 h2 h3
          | test _ h2 => exact h2 _ _ _ ho
          | _ => simp_all
  | cmp =>
    simp only
    have bad : (∀ q v inv, cmpOperands i.ops ≠ some (q, some (.imm v), inv)) → ∃ m, Stops text f start stop r pre i m ∧
        said [⟨.error, cs!"Unsupported CMP instruction %#x: %r", [.int i.ip, .insn (text i)]⟩] = [(.error, some m)] := by
      intro ho
      refine ⟨_, Stops.cmp hm fun q v rest => ⟨fun hops => ?_, fun hops => ?_⟩, by simp [said, LogCall.text, pyFormat, hexRepr]⟩
      · obtain ⟨inv, h4⟩ := cmpOperands_of _ rest q v (.inl hops)
        exact ho _ _ _ h4
      · obtain ⟨inv, h4⟩ := cmpOperands_of _ rest q v (.inr hops)
        exact ho _ _ _ h4
    rcases ho : cmpOperands i.ops with _ | ⟨q, _ | ⟨q' | v | _⟩, inv⟩
    · exact .inr ⟨rfl, bad (by simp [ho])⟩
    · exact .inr ⟨rfl, bad (by simp [ho])⟩
    · exact .inr ⟨rfl, bad (by simp [ho])⟩
    · obtain ⟨rest, hops⟩ := cmpOperands_imm _ _ _ _ ho
      simp only
      by_cases hq : q ≠ r
      · rw [if_pos hq, if_pos hq]
        refine .inr ⟨rfl, _, Stops.register q v rest hm hops hq, ?_⟩
        simp [said, refuse_fst, LogCall.text, pyFormat, hexRepr]
      · rw [if_neg hq, if_neg hq]
        refine .inl ⟨_, rfl, rfl, after_step pre st _ i h (by simp [hm]) (by simp [hm]), fun m hs => ?_⟩
        cases hs with
        | afterTest t hg h1 h2 h3 => exact hnt t hg h1 h2 h3
        | cmp _ h2 =>
          rcases hops with hops | hops
          · exact (h2 _ _ _).1 hops
          · exact (h2 _ _ _).2 hops
        | register q' v' rest' _ h2 h3 =>
          obtain ⟨inv', h4⟩ := cmpOperands_of _ _ _ _ h2
          rw [ho] at h4
          simp only [Option.some.injEq, Prod.mk.injEq] at h4
          exact hq (h4.1 ▸ h3)
        | _ => simp_all
    · exact .inr ⟨rfl, bad (by simp [ho])⟩
  | jmp =>
    refine .inl ⟨_, rfl, rfl, after_step pre st _ i h (by simp [branchTo_after, hm]) (by simp [branchTo_after, hm]), fun m hs => ?_⟩
    cases hs with
    | afterTest t hg h1 h2 h3 => exact hnt t hg h1 h2 h3
    | _ => simp_all
  | jcc c =>
    simp only
    by_cases hc : c = .other
    · rw [if_pos hc, if_pos hc]
      refine .inr ⟨rfl, _, Stops.condition (hc ▸ hm), ?_⟩
      simp [said, refuse_fst, LogCall.text, pyFormat, hexRepr]
    rw [if_neg hc, if_neg hc]
    cases hl : st.last with
    | none =>
      refine .inr ⟨rfl, _, Stops.noCompare c hm (h.last.1 hl), ?_⟩
      simp [said, refuse_fst, LogCall.text, pyFormat, hexRepr]
    | some imm =>
      refine .inl ⟨_, rfl, rfl, after_step pre st _ i h ?_ ?_, fun m hs => ?_⟩
      · split <;> simp [branchTo_after, hm]
      · split <;> simp [branchTo_after, hm, hl]
      · cases hs with
        | afterTest t hg h1 h2 h3 => exact hnt t hg h1 h2 h3
        | condition h1 => rw [hm] at h1; exact hc (by simpa using h1)
        | noCompare c' _ h2 =>
          rw [← h.last, hl] at h2
          cases h2
        | _ => simp_all
  | call =>
    simp only
    by_cases hi : start ≤ i.target ∧ i.target < stop
    · rw [if_pos hi, if_pos hi]
      refine .inr ⟨rfl, _, Stops.itself hm hi.1 hi.2, ?_⟩
      simp [said, refuse_fst, LogCall.text, pyFormat, LogArg.str]
    · rw [if_neg hi, if_neg hi]
      refine .inl ⟨_, rfl, rfl, after_step pre st _ i h (by simp [branchTo_after, hm]) (by simp [branchTo_after, hm]), fun m hs => ?_⟩
      cases hs with
      | afterTest t hg h1 h2 h3 => exact hnt t hg h1 h2 h3
      | itself _ h1 h2 => exact hi ⟨h1, h2⟩
      | _ => simp_all
  | other =>
    refine .inl ⟨_, rfl, rfl, after_step pre st _ i h (by simp [hm]) (by simp [hm]), fun m hs => ?_⟩
    cases hs with
    | afterTest t hg h1 h2 h3 => exact hnt t hg h1 h2 h3
    | _ => simp_all

/-! ## What is shown in all -/

/-- nothing stops the analysis in `is`, after `pre` -/
def Understood (text : Insn → Str) (f : Str) (start stop r : Nat) (pre is : List Insn) : Prop :=
  ∀ a j b m, is = a ++ j :: b → ¬ Stops text f start stop r (pre ++ a) j m

theorem understood_cons (text : Insn → Str) (f : Str) (start stop r : Nat) (pre is : List Insn) (i : Insn)
    (h1 : ∀ m, ¬ Stops text f start stop r pre i m) (h2 : Understood text f start stop r (pre ++ [i]) is) :
    Understood text f start stop r pre (i :: is) := by
  intro a j b m h
  cases a with
  | nil =>
    simp only [List.nil_append, List.cons.injEq] at h
    rw [← h.1, List.append_nil]
    exact h1 m
  | cons k a =>
    simp only [List.cons_append, List.cons.injEq] at h
    have := h2 a j b m h.2
    rw [← h.1]
    simpa using this

theorem insnLoopL_either (text : Insn → Str) (f : Str) (start stop r : Nat) : ∀ (is pre : List Insn) (st : Pass), KnowsAfter pre st →
    (∃ st', insnLoop start stop r is st = some st' ∧ (insnLoopL text f start stop r is st).1 = [] ∧ Understood text f start stop r pre is) ∨
    (insnLoop start stop r is st = none ∧ ∃ a j b m, is = a ++ j :: b ∧ Stops text f start stop r (pre ++ a) j m ∧
      Understood text f start stop r pre a ∧ said (insnLoopL text f start stop r is st).1 = [(.error, some m)]) := by
  intro is
  induction is with
  | nil =>
    intro pre st _
    exact .inl ⟨st, rfl, rfl, fun a j b m h => by simp at h⟩
  | cons i is ih =>
    intro pre st h
    unfold insnLoop insnLoopL
    rcases insnStepL_either text f start stop r pre st i h with ⟨st', h1, h2, h3, h4⟩ | ⟨h1, m, h2, h3⟩
    · rw [lm_quiet _ _ (some st') h2 (by rw [insnStepL_snd, h1]), h1]
      rcases ih (pre ++ [i]) st' h3 with ⟨st'', g1, g2, g3⟩ | ⟨g1, a, j, b, m, g2, g3, g4, g5⟩
      · exact .inl ⟨st'', g1, g2, understood_cons _ _ _ _ _ _ _ _ h4 g3⟩
      · refine .inr ⟨g1, i :: a, j, b, m, by rw [g2]; rfl, ?_, understood_cons _ _ _ _ _ _ _ _ h4 g4, g5⟩
        simpa using g3
    · right
      rw [lm_bind_fst _ _ none (by rw [insnStepL_snd, h1]), h1]
      refine ⟨rfl, [], i, is, m, rfl, by simpa using h2, fun a j b m h => by simp at h, ?_⟩
      simp only [said, List.map_append] at h3 ⊢
      rw [h3]
      rfl

theorem after_nil (nrs : Nrs) (cands : List Insn) : KnowsAfter [] ⟨nrs, cands, false, none, none, false⟩ := ⟨rfl, by simp⟩

theorem passLoopL_quiet (text : Insn → Str) (f : Str) (start stop r : Nat) (insns : List Insn) (h : Understood text f start stop r [] insns) :
    ∀ (fuel : Nat) (nrs : Nrs) (cands : List Insn), (passLoopL text f start stop r insns fuel nrs cands).1 = [] ∧
      passLoop start stop r insns fuel nrs cands ≠ .ok none := by
  intro fuel
  induction fuel with
  | zero => intros; exact ⟨rfl, by simp [passLoop]⟩
  | succ fuel ih =>
    intro nrs cands
    unfold passLoopL passLoop
    rcases insnLoopL_either text f start stop r insns [] _ (after_nil nrs cands) with ⟨st', h1, h2, _⟩ | ⟨_, a, j, b, m, h2, h3, _⟩
    · rw [lm_quiet _ _ (some st') h2 (by rw [insnLoopL_snd, h1]), h1]
      simp only
      split
      · exact ih _ _
      · exact ⟨rfl, by simp⟩
    · exact absurd h3 (h a j b m h2)

theorem passLoopL_stops (text : Insn → Str) (f : Str) (start stop r : Nat) (insns a b : List Insn) (j : Insn) (h : insns = a ++ j :: b)
    (hu : Understood text f start stop r [] a) (hs : ∃ m, Stops text f start stop r a j m) (fuel : Nat) (nrs : Nrs) (cands : List Insn) :
    passLoop start stop r insns (fuel + 1) nrs cands = .ok none ∧ ∃ m, Stops text f start stop r a j m ∧
      said (passLoopL text f start stop r insns (fuel + 1) nrs cands).1 = [(.error, some m)] := by
  unfold passLoopL passLoop
  rcases insnLoopL_either text f start stop r insns [] _ (after_nil nrs cands) with ⟨st', _, _, h3⟩ | ⟨h1, a', j', b', m, h2, h3, h4, h5⟩
  · obtain ⟨m, hm⟩ := hs
    exact absurd hm (h3 a j b m h)
  · have hsame : a' = a ∧ j' = j := by
      rw [h] at h2
      rw [List.append_eq_append_iff] at h2
      rcases h2 with ⟨c, h6, h7⟩ | ⟨c, h6, h7⟩
      · cases c with
        | nil =>
          simp only [List.nil_append, List.cons.injEq, List.append_nil] at h7 h6
          exact ⟨h6, h7.1.symm⟩
        | cons k c =>
          simp only [List.cons_append, List.cons.injEq] at h7
          obtain ⟨m', hm'⟩ := hs
          exact absurd hm' (h4 a j c m' (by rw [h6, h7.1]))
      · cases c with
        | nil =>
          simp only [List.nil_append, List.cons.injEq, List.append_nil] at h7 h6
          exact ⟨h6.symm, h7.1⟩
        | cons k c =>
          simp only [List.cons_append, List.cons.injEq] at h7
          exact absurd h3 (hu a' j' c m (by rw [h6, h7.1]))
    rw [hsame.1, hsame.2] at h3
    rw [lm_bind_fst _ _ none (by rw [insnLoopL_snd, h1]), h1]
    refine ⟨rfl, m, h3, ?_⟩
    simp only [said, List.map_append] at h5 ⊢
    rw [h5]
    rfl

theorem firstReg_some : ∀ (ops : List Operand) (r : Nat), firstReg ops = some r ↔
    ∃ before after, ops = before ++ .reg r :: after ∧ ∀ q, Operand.reg q ∉ before := by
  intro ops r
  induction ops with
  | nil => simp [firstReg]
  | cons o os ih =>
    by_cases ho : ∃ q, o = .reg q
    · obtain ⟨q, rfl⟩ := ho
      simp only [firstReg, Option.some.injEq]
      constructor
      · rintro rfl
        exact ⟨[], os, rfl, by simp⟩
      · rintro ⟨b, a, h, hb⟩
        cases b with
        | nil =>
          simp only [List.nil_append, List.cons.injEq, Operand.reg.injEq] at h
          exact h.1
        | cons x b =>
          simp only [List.cons_append, List.cons.injEq] at h
          exact absurd (by simp [h.1]) (hb q)
    · have hf : firstReg (o :: os) = firstReg os := by
        cases o with
        | reg q => exact absurd ⟨q, rfl⟩ ho
        | imm v => rfl
        | other => rfl
      rw [hf, ih]
      constructor
      · rintro ⟨b, a, rfl, hb⟩
        exact ⟨o :: b, a, rfl, fun q hq => by
          rcases List.mem_cons.1 hq with h | h
          · exact ho ⟨q, h.symm⟩
          · exact hb q h⟩
      · rintro ⟨b, a, h, hb⟩
        cases b with
        | nil =>
          simp only [List.nil_append, List.cons.injEq] at h
          exact absurd ⟨r, h.1⟩ ho
        | cons x b =>
          simp only [List.cons_append, List.cons.injEq] at h
          exact ⟨b, a, h.2, fun q hq => hb q (by simp [hq])⟩

theorem comparesReg_iff (i : Insn) (r : Nat) : ComparesReg i r ↔ (i.mnem = .cmp ∨ i.mnem = .test) ∧ firstReg i.ops = some r := by
  rw [firstReg_some]
  rfl

theorem numberReg_none (insns : List Insn) (h : ∀ i ∈ insns, ∀ r, ¬ ComparesReg i r) : numberReg insns = none := by
  induction insns with
  | nil => rfl
  | cons i is ih =>
    unfold numberReg
    rw [ih fun j hj => h j (by simp [hj])]
    split
    · rename_i hm
      cases hf : firstReg i.ops with
      | none => rfl
      | some r => exact absurd ((comparesReg_iff i r).2 ⟨hm, hf⟩) (h i (by simp) r)
    · rfl

theorem numberReg_first (insns : List Insn) (r : Nat) (h : FirstCompared insns r) : numberReg insns = some r := by
  obtain ⟨pre, i, post, rfl, hc, hn⟩ := h
  induction pre with
  | nil =>
    rw [comparesReg_iff] at hc
    simp only [List.nil_append]
    unfold numberReg
    rw [if_pos hc.1, hc.2]
  | cons j pre ih =>
    rw [List.cons_append]
    unfold numberReg
    rw [ih fun k hk => hn k (by simp [hk])]
    split
    · rename_i hm
      cases hf : firstReg j.ops with
      | none => rfl
      | some q => exact absurd ((comparesReg_iff j q).2 ⟨hm, hf⟩) (hn j (by simp) q)
    · rfl

/-! ## The numbers -/

theorem addNumbersL_either (vaddr : Nat) : ∀ (ns : List Nat) (d : Dict Nat Nat),
    (∃ d', addNumbers vaddr ns d = some d' ∧ (addNumbersL vaddr ns d).1 = [] ∧
      ∀ n v, dget n d' = some v → dget n d = some v ∨ (n ∈ ns ∧ v = vaddr)) ∨
    (addNumbers vaddr ns d = none ∧ ∃ n v, n ∈ ns ∧ dget n d = some v ∧ v ≠ vaddr ∧ ∃ t,
      said (addNumbersL vaddr ns d).1 = [(.error, some t)]) := by
  intro ns
  induction ns with
  | nil => intro d; exact .inl ⟨d, rfl, rfl, fun n v h => .inl h⟩
  | cons n ns ih =>
    intro d
    unfold addNumbers addNumbersL
    cases hd : dget n d with
    | none =>
      simp only
      rcases ih (dset n vaddr d) with ⟨d', h1, h2, h3⟩ | ⟨h1, k, v, h2, h3, h4, h5⟩
      · refine .inl ⟨d', h1, h2, fun k v hk => ?_⟩
        rcases h3 k v hk with h | ⟨h, h'⟩
        · by_cases hkn : k = n
          · subst hkn
            rw [dget_dset_self] at h
            exact .inr ⟨by simp, (Option.some.inj h).symm⟩
          · rw [dget_dset_ne _ _ hkn] at h
            exact .inl h
        · exact .inr ⟨by simp [h], h'⟩
      · refine .inr ⟨h1, k, v, by simp [h2], ?_, h4, h5⟩
        by_cases hkn : k = n
        · subst hkn
          rw [dget_dset_self] at h3
          exact absurd (Option.some.inj h3).symm h4
        · rw [dget_dset_ne _ _ hkn] at h3
          exact h3
    | some v =>
      simp only
      by_cases hv : v ≠ vaddr
      · rw [if_pos hv, if_pos hv]
        exact .inr ⟨rfl, n, v, by simp, hd, hv, _, rfl⟩
      · rw [if_neg hv, if_neg hv]
        rcases ih d with ⟨d', h1, h2, h3⟩ | ⟨h1, k, v', h2, h3, h4, h5⟩
        · exact .inl ⟨d', h1, h2, fun k v hk => (h3 k v hk).imp_right fun h => ⟨by simp [h.1], h.2⟩⟩
        · exact .inr ⟨h1, k, v', by simp [h2], h3, h4, h5⟩

/-- why candidates do not fit together -/
inductive Clash (text : Insn → Str) (nrs : Nrs) (all : List Insn) (t : Str) : Prop
  | empty (i : Insn) : i ∈ all → numbersAt nrs i.target = [] →
      t = cs!"Empty set of syscall numbers for 0x" ++ Nat.toDigits 16 i.target ++ cs!" (target of " ++ text i ++ cs!"). Unreachable!?" →
      Clash text nrs all t
  | defaults (a b : List Insn) (i j : Insn) : all = a ++ j :: b → i ∈ a → bigAt nrs i = true → bigAt nrs j = true →
      t = cs!"Multiple default switch cases!?" → Clash text nrs all t
  | number (i j : Insn) (n : Nat) : i ∈ all → j ∈ all → n ∈ numbersAt nrs i.target → n ∈ numbersAt nrs j.target → i.target ≠ j.target →
      Clash text nrs all t

theorem collectL_either (text : Insn → Str) (numOrder : List Nat → List Nat) (ho : ∀ l, (numOrder l).Perm l) (nrs : Nrs) (all : List Insn) :
    ∀ (is done : List Insn) (dflt : Bool) (d : Dict Nat Nat), all = done ++ is →
      (dflt = true → ∃ i ∈ done, bigAt nrs i = true) →
      (∀ n v, dget n d = some v → ∃ i ∈ done, i.target = v ∧ n ∈ numbersAt nrs v) →
      (∃ d', collect numOrder nrs is dflt d = some d' ∧ (collectL text numOrder nrs is dflt d).1 = []) ∨
      (collect numOrder nrs is dflt d = none ∧ ∃ t, Clash text nrs all t ∧ said (collectL text numOrder nrs is dflt d).1 = [(.error, some t)]) := by
  intro is
  induction is with
  | nil => intro done dflt d _ _ _; exact .inl ⟨d, rfl, rfl⟩
  | cons i is ih =>
    intro done dflt d hall hdf hd
    have hi : i ∈ all := by simp [hall]
    unfold collect collectL
    simp only
    by_cases h0 : (numbersAt nrs i.target).length = 0
    · rw [if_pos h0, if_pos h0]
      refine .inr ⟨rfl, _, .empty i hi (List.length_eq_zero_iff.1 h0) rfl, ?_⟩
      simp [said, refuse_fst, LogCall.text, pyFormat, hexRepr]
    rw [if_neg h0, if_neg h0]
    have hall' : all = (done ++ [i]) ++ is := by simp [hall]
    by_cases hb : (numbersAt nrs i.target).length > 100
    · rw [if_pos hb, if_pos hb]
      have hbig : bigAt nrs i = true := by simp [bigAt, hb]
      cases dflt with
      | true =>
        obtain ⟨k, hk, hkb⟩ := hdf rfl
        exact .inr ⟨rfl, _, .defaults done is k i hall hk hkb hbig rfl, rfl⟩
      | false =>
        refine ih (done ++ [i]) true d hall' (fun _ => ⟨i, by simp, hbig⟩) fun n v hn => ?_
        obtain ⟨k, hk, hkk⟩ := hd n v hn
        exact ⟨k, by simp [hk], hkk⟩
    rw [if_neg hb, if_neg hb]
    rcases addNumbersL_either i.target (numOrder (numbersAt nrs i.target)) d with ⟨d', h1, h2, h3⟩ | ⟨h1, n, v, h2, h3, h4, t, h5⟩
    · rw [lm_quiet _ _ (some d') h2 (by rw [addNumbersL_snd, h1]), h1]
      refine ih (done ++ [i]) dflt d' hall' (fun h => ?_) fun n v hn => ?_
      · obtain ⟨k, hk, hkk⟩ := hdf h
        exact ⟨k, by simp [hk], hkk⟩
      · rcases h3 n v hn with h | ⟨h, rfl⟩
        · obtain ⟨k, hk, hkk⟩ := hd n v h
          exact ⟨k, by simp [hk], hkk⟩
        · exact ⟨i, by simp, rfl, (ho _).mem_iff.1 h⟩
    · right
      obtain ⟨k, hk, hkt, hkn⟩ := hd n v h3
      rw [lm_bind_fst _ _ none (by rw [addNumbersL_snd, h1]), h1]
      refine ⟨rfl, t, .number k i n (by simp [hall, hk]) hi (hkt ▸ hkn) ((ho _).mem_iff.1 h2) (hkt ▸ h4), ?_⟩
      simp only [said, List.map_append] at h5 ⊢
      rw [h5]
      rfl

end Verif
