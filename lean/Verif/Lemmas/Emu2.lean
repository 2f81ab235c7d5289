import Verif.Lemmas.Emu
/-! # Lemmas about the passes of the switch analysis: exactness -/
set_option autoImplicit false

namespace Verif
open Spec

theorem takenFilter_iff (c : Cc) (v n : Nat) (hc : c ≠ .other) (hn : n < nrMax) :
    takenFilter c v n = true ↔ CondHolds c n v := by
  cases c <;> simp [takenFilter, CondHolds, hn] <;> omega

theorem lastCompare_snoc (p : List Insn) (i : Insn) : lastCompare (p ++ [i]) = (compareValue i).or (lastCompare p) := by
  simp [lastCompare, List.foldl_append]

/-- where number `n` goes from instruction `i`, with `p` before it -/
def Flow (p : List Insn) (i : Insn) (n x : Nat) : Prop :=
  ((i.mnem = .cmp ∨ i.mnem = .test ∨ i.mnem = .other) ∧ x = i.nextIp) ∨
  ((i.mnem = .jmp ∨ i.mnem = .call) ∧ x = i.target) ∨
  ∃ c v, i.mnem = .jcc c ∧ lastCompare p = some v ∧ ((CondHolds c n v ∧ x = i.target) ∨ (¬ CondHolds c n v ∧ x = i.nextIp))

def Bounded (m : Nrs) : Prop := ∀ x n, m x n = true → n < nrMax

/-- the part of `Supported` about one instruction -/
def SupportedAt (r start stop : Nat) (p : List Insn) (i : Insn) : Prop :=
  (i.mnem = .cmp → ∃ v, i.ops = [.reg r, .imm v]) ∧
  (i.mnem = .test → i.ops = [.reg r, .reg r]) ∧
  (∀ c, i.mnem = .jcc c → c ≠ .other ∧ ∃ v, lastCompare p = some v) ∧
  (i.mnem = .call → ¬ (start ≤ i.target ∧ i.target < stop))

theorem branchTo_spec (start stop : Nat) (st : Pass) (i : Insn) (tk nt : Nat → Bool) (F : Nat → Nat → Prop)
    (hb : Bounded st.nrs) (hip : i.ip < i.nextIp)
    (hsub : ∀ n, tk n = true → st.nrs i.ip n = true)
    (hF : ∀ x n, (st.nrs i.ip n = true ∧ F n x) ↔ (tk n = true ∧ x = i.target) ∨ (nt n = true ∧ x = i.nextIp)) :
    (∀ x n, (branchTo start stop st i tk nt).nrs x n = true ↔ st.nrs x n = true ∨ (st.nrs i.ip n = true ∧ F n x)) ∧
    ((branchTo start stop st i tk nt).keep = false → st.keep = false ∧
      ∀ n x, st.nrs i.ip n = true → F n x → start ≤ x → x < stop → x < i.ip → st.nrs x n = true) := by
  constructor
  · intro x n
    rw [hF]
    simp only [branchTo, nrs_add_true]
    constructor
    · rintro ((h | ⟨rfl, h⟩) | ⟨rfl, h⟩)
      · exact .inl h
      · exact .inr (.inl ⟨h, rfl⟩)
      · exact .inr (.inr ⟨h, rfl⟩)
    · rintro (h | ⟨h, rfl⟩ | ⟨h, rfl⟩)
      · exact .inl (.inl h)
      · exact .inl (.inr ⟨rfl, h⟩)
      · exact .inr ⟨rfl, h⟩
  · intro h
    simp only [branchTo, Bool.or_eq_false_iff, Bool.and_eq_false_iff, Bool.not_eq_false', decide_eq_false_iff_not] at h
    refine ⟨h.1, fun n x hn hf h1 h2 h3 => ?_⟩
    rcases (hF x n).1 ⟨hn, hf⟩ with ⟨ht, rfl⟩ | ⟨_, rfl⟩
    · rcases h.2 with (h' | h') | h'
      · rcases h' with h' | h'
        · exact absurd h1 h'
        · exact absurd h2 h'
      · exact absurd h3 h'
      · exact (subsetB_iff _ _).1 h' n (hb _ _ hn) ht
    · omega

theorem branchTo_rest (start stop : Nat) (st : Pass) (i : Insn) (tk nt : Nat → Bool) :
    (branchTo start stop st i tk nt).prev = st.prev ∧ (branchTo start stop st i tk nt).last = st.last ∧
    (branchTo start stop st i tk nt).inv = st.inv ∧
    (branchTo start stop st i tk nt).cands = (if start ≤ i.target ∧ i.target < stop then st.cands else addCand st.cands i) := by
  refine ⟨rfl, rfl, rfl, ?_⟩
  simp [branchTo]

theorem compareValue_jump (i : Insn) (h : i.mnem ≠ .cmp) (h' : i.mnem ≠ .test) : compareValue i = none := by
  unfold compareValue
  split
  · contradiction
  · contradiction
  · rfl

/-- an instruction of the supported kind is handled, and exactly the numbers that flow from it are added -/
theorem insnStep_spec (start stop r : Nat) (st : Pass) (p : List Insn) (i : Insn)
    (hs : SupportedAt r start stop p i) (hip : i.ip < i.nextIp) (hb : Bounded st.nrs)
    (hprev : st.prev = some .test → i.mnem = .jcc .e ∨ i.mnem = .jcc .ne)
    (hlast : st.last = lastCompare p) (hinv : st.inv = false) :
    ∃ st', insnStep start stop r st i = some st' ∧ st'.prev = some i.mnem ∧ st'.last = lastCompare (p ++ [i]) ∧
      st'.inv = false ∧
      (∀ x n, st'.nrs x n = true ↔ st.nrs x n = true ∨ (st.nrs i.ip n = true ∧ Flow p i n x)) ∧
      (st'.keep = false → st.keep = false ∧
        ∀ n x, st.nrs i.ip n = true → Flow p i n x → start ≤ x → x < stop → x < i.ip → st.nrs x n = true) ∧
      ((IsExit start stop i ∧ st'.cands = addCand st.cands i) ∨ (¬ IsExit start stop i ∧ st'.cands = st.cands)) := by
  obtain ⟨s1, s2, s3, s4⟩ := hs
  have hp : ¬ (st.prev = some .test ∧ ¬ (i.mnem = .jcc .e ∨ i.mnem = .jcc .ne)) := fun ⟨h1, h2⟩ => h2 (hprev h1)
  have next : ∀ (hm : i.mnem = .cmp ∨ i.mnem = .test ∨ i.mnem = .other), ∀ x n,
      (st.nrs.add i.nextIp (st.nrs i.ip)) x n = true ↔ st.nrs x n = true ∨ (st.nrs i.ip n = true ∧ Flow p i n x) := by
    intro hm x n
    rw [nrs_add_true]
    have : Flow p i n x ↔ x = i.nextIp := by
      unfold Flow
      rcases hm with hm | hm | hm <;> simp [hm]
    rw [this]
    constructor
    · rintro (h | ⟨h, h'⟩)
      · exact .inl h
      · exact .inr ⟨h', h⟩
    · rintro (h | ⟨h, h'⟩)
      · exact .inl h
      · exact .inr ⟨h', h⟩
  have back : ∀ (hm : i.mnem = .cmp ∨ i.mnem = .test ∨ i.mnem = .other), st.keep = false → st.keep = false ∧
        ∀ n x, st.nrs i.ip n = true → Flow p i n x → start ≤ x → x < stop → x < i.ip → st.nrs x n = true := by
    intro hm hk
    refine ⟨hk, fun n x _ hf _ _ hx => ?_⟩
    have : x = i.nextIp := by
      unfold Flow at hf
      rcases hm with hm | hm | hm <;> simpa [hm] using hf
    omega
  have noexit : (i.mnem = .cmp ∨ i.mnem = .test ∨ i.mnem = .other ∨ i.mnem = .ret) → ¬ IsExit start stop i := by
    rintro hm ⟨he, _⟩
    rcases hm with hm | hm | hm | hm <;> simp [hm] at he
  unfold insnStep
  simp only [if_neg hp]
  cases hm : i.mnem with
  | ret =>
    refine ⟨_, rfl, rfl, ?_, hinv, fun x n => ?_, fun hk => ⟨hk, fun n x _ hf => ?_⟩, .inr ⟨noexit (by simp [hm]), rfl⟩⟩
    · rw [lastCompare_snoc, compareValue_jump i (by simp [hm]) (by simp [hm])]
      simpa using hlast
    · simp [Flow, hm]
    · simp [Flow, hm] at hf
  | other =>
    refine ⟨_, rfl, rfl, ?_, hinv, next (by simp [hm]), back (by simp [hm]), .inr ⟨noexit (by simp [hm]), rfl⟩⟩
    rw [lastCompare_snoc, compareValue_jump i (by simp [hm]) (by simp [hm])]
    simpa using hlast
  | test =>
    simp only [s2 hm]
    refine ⟨_, rfl, rfl, ?_, hinv, next (by simp [hm]), back (by simp [hm]), .inr ⟨noexit (by simp [hm]), rfl⟩⟩
    rw [lastCompare_snoc]
    simp [compareValue, hm]
  | cmp =>
    obtain ⟨v, hv⟩ := s1 hm
    simp only [hv, cmpOperands, List.head?]
    refine ⟨_, if_neg (by simp), rfl, ?_, rfl, next (by simp [hm]), back (by simp [hm]), .inr ⟨noexit (by simp [hm]), rfl⟩⟩
    rw [lastCompare_snoc]
    simp [compareValue, hm, hv]
  | jmp =>
    obtain ⟨b1, b2, b3, b4⟩ := branchTo_rest start stop { st with prev := some .jmp } i (st.nrs i.ip) fun _ => false
    obtain ⟨c1, c2⟩ := branchTo_spec start stop { st with prev := some .jmp } i (st.nrs i.ip) (fun _ => false) (Flow p i) hb hip
      (fun _ h => h) (by intro x n; simp [Flow, hm])
    refine ⟨_, rfl, b1, ?_, by rw [b3]; exact hinv, c1, c2, ?_⟩
    · rw [b2, lastCompare_snoc, compareValue_jump i (by simp [hm]) (by simp [hm])]
      simpa using hlast
    · rw [b4]
      by_cases hin : start ≤ i.target ∧ i.target < stop
      · exact .inr ⟨fun h => h.2 hin, if_pos hin⟩
      · exact .inl ⟨⟨.inl hm, hin⟩, if_neg hin⟩
  | call =>
    obtain ⟨b1, b2, b3, b4⟩ := branchTo_rest start stop { st with prev := some .call } i (st.nrs i.ip) fun _ => false
    obtain ⟨c1, c2⟩ := branchTo_spec start stop { st with prev := some .call } i (st.nrs i.ip) (fun _ => false) (Flow p i) hb hip
      (fun _ h => h) (by intro x n; simp [Flow, hm])
    refine ⟨_, if_neg (s4 hm), b1, ?_, by rw [b3]; exact hinv, c1, c2, ?_⟩
    · rw [b2, lastCompare_snoc, compareValue_jump i (by simp [hm]) (by simp [hm])]
      simpa using hlast
    · rw [b4]
      exact .inl ⟨⟨.inr (.inl hm), s4 hm⟩, if_neg (s4 hm)⟩
  | jcc c =>
    obtain ⟨hc, v, hv⟩ := s3 c hm
    simp only [if_neg hc, hlast, hv, hinv]
    obtain ⟨b1, b2, b3, b4⟩ := branchTo_rest start stop { st with prev := some (.jcc c), last := some v, inv := false } i
      (fun n => st.nrs i.ip n && takenFilter c v n) (fun n => st.nrs i.ip n && !takenFilter c v n)
    obtain ⟨c1, c2⟩ := branchTo_spec start stop { st with prev := some (.jcc c), last := some v, inv := false } i
      (fun n => st.nrs i.ip n && takenFilter c v n) (fun n => st.nrs i.ip n && !takenFilter c v n) (Flow p i) hb hip
      (fun n h => by simp only [Bool.and_eq_true] at h; exact h.1) (by
        intro x n
        by_cases hn : st.nrs i.ip n = true
        · have := takenFilter_iff c v n hc (hb _ _ hn)
          simp only [hn, Bool.true_and, true_and, Flow, hm, hv, Bool.not_eq_true', ← Bool.not_eq_true, this]
          simp only [reduceCtorEq, or_self, false_and, false_or, Mnem.jcc.injEq, Option.some.injEq]
          constructor
          · rintro ⟨c', v', rfl, rfl, h⟩; exact h
          · intro h; exact ⟨c, v, rfl, rfl, h⟩
        · simp [hn])
    refine ⟨_, rfl, b1, ?_, by simp only [Bool.false_eq_true, if_false]; exact b3, c1, c2, ?_⟩
    · simp only [Bool.false_eq_true, if_false]
      rw [b2, lastCompare_snoc, compareValue_jump i (by simp [hm]) (by simp [hm])]
      simp [hv]
    · simp only [Bool.false_eq_true, if_false]
      rw [b4]
      by_cases hin : start ≤ i.target ∧ i.target < stop
      · exact .inr ⟨fun h => h.2 hin, if_pos hin⟩
      · exact .inl ⟨⟨.inr (.inr ⟨c, hm⟩), hin⟩, if_neg hin⟩

/-- nothing more flows from the instructions of `p` -/
def ClosedOn (p : List Insn) (m : Nrs) : Prop :=
  ∀ a i b, p = a ++ i :: b → ∀ n x, m i.ip n = true → Flow a i n x → m x n = true

theorem snoc_split {α : Type} (p a b : List α) (i j : α) (h : p ++ [i] = a ++ j :: b) :
    (a = p ∧ j = i ∧ b = []) ∨ ∃ b', b = b' ++ [i] ∧ p = a ++ j :: b' := by
  rcases List.eq_nil_or_concat b with rfl | ⟨b', k, rfl⟩
  · obtain ⟨h1, h2⟩ := List.append_inj' h rfl
    simp at h2
    exact .inl ⟨h1.symm, h2.symm, rfl⟩
  · right
    rw [List.concat_eq_append] at h ⊢
    have : p ++ [i] = (a ++ j :: b') ++ [k] := by simpa using h
    obtain ⟨h1, h2⟩ := List.append_inj' this rfl
    simp at h2
    exact ⟨b', by rw [h2], h1⟩

theorem contiguous_before (stop : Nat) : ∀ (p : List Insn) (start : Nat) (i : Insn) (q : List Insn), Contiguous start stop (p ++ i :: q) →
    start ≤ i.ip ∧ i.ip < i.nextIp ∧ i.nextIp ≤ stop ∧ Contiguous i.nextIp stop q ∧ ∀ j ∈ p, start ≤ j.ip ∧ j.ip < i.ip := by
  have le : ∀ (q : List Insn) (s : Nat), Contiguous s stop q → s ≤ stop := by
    intro q
    induction q with
    | nil => intro s h; exact Nat.le_of_eq h
    | cons a q ih =>
      intro s h
      obtain ⟨h1, h2, h3⟩ := h
      have := ih _ h3
      omega
  intro p
  induction p with
  | nil =>
    intro start i q h
    obtain ⟨h1, h2, h3⟩ := h
    exact ⟨by omega, h2, le _ _ h3, h3, by simp⟩
  | cons a p ih =>
    intro start i q h
    obtain ⟨h1, h2, h3⟩ := h
    obtain ⟨g1, g2, g3, g4, g5⟩ := ih _ _ _ h3
    refine ⟨by omega, g2, g3, g4, fun j hj => ?_⟩
    rcases List.mem_cons.1 hj with rfl | hj
    · exact ⟨by omega, by omega⟩
    · have := g5 j hj
      exact ⟨by omega, this.2⟩

theorem mem_addCand (cands : List Insn) (i j : Insn) (h : j ∈ addCand cands i) : j ∈ cands ∨ j = i := by
  unfold addCand at h
  split at h
  · exact .inl h
  · simpa using h

theorem addCand_key (cands : List Insn) (i : Insn) : ∃ j ∈ addCand cands i, j.key = i.key := by
  unfold addCand
  split
  · rename_i h
    obtain ⟨j, hj, hk⟩ := List.any_eq_true.1 h
    exact ⟨j, hj, by simpa using hk⟩
  · exact ⟨i, by simp, rfl⟩

theorem addCand_keeps (cands : List Insn) (i j : Insn) (h : j ∈ cands) : j ∈ addCand cands i := by
  unfold addCand
  split
  · exact h
  · simp [h]

/-- what one pass over supported instructions does -/
theorem insnLoop_spec (start stop r : Nat) (insns : List Insn) (hc : Contiguous start stop insns)
    (hs : ∀ p i q, insns = p ++ i :: q → SupportedAt r start stop p i ∧
      (i.mnem = .test → ∀ j q', q = j :: q' → j.mnem = .jcc .e ∨ j.mnem = .jcc .ne))
    (S : Nat → Nat → Prop)
    (hS : ∀ p i q, insns = p ++ i :: q → ∀ n x, S i.ip n → Flow p i n x → S x n) :
    ∀ (post p : List Insn) (st : Pass), insns = p ++ post → Bounded st.nrs →
      (st.prev = some .test → ∀ j q', post = j :: q' → j.mnem = .jcc .e ∨ j.mnem = .jcc .ne) →
      st.last = lastCompare p → st.inv = false → (∀ x n, st.nrs x n = true → S x n) →
      ∃ st', insnLoop start stop r post st = some st' ∧ Bounded st'.nrs ∧ (∀ x n, st'.nrs x n = true → S x n) ∧
        (∀ x n, st.nrs x n = true → st'.nrs x n = true) ∧
        (st'.keep = false → ClosedOn p st.nrs → st.keep = false ∧ ClosedOn insns st'.nrs) ∧
        (∀ c ∈ st'.cands, c ∈ st.cands ∨ (c ∈ post ∧ IsExit start stop c)) ∧
        (∀ c ∈ st.cands, c ∈ st'.cands) ∧
        (∀ i ∈ post, IsExit start stop i → ∃ c ∈ st'.cands, c.key = i.key) := by
  intro post
  induction post with
  | nil =>
    intro p st hp hb _ _ _ hin
    refine ⟨st, rfl, hb, hin, fun _ _ h => h, fun hk hcl => ⟨hk, ?_⟩, fun c hc => .inl hc, fun c hc => hc, by simp⟩
    rw [hp, List.append_nil]
    exact hcl
  | cons i post ih =>
    intro p st hp hb hprev hlast hinv hin
    obtain ⟨hsi, hti⟩ := hs p i post hp
    rw [hp] at hc
    obtain ⟨c1, c2, c3, c4, c5⟩ := contiguous_before _ _ _ _ _ hc
    obtain ⟨st1, h1, h2, h3, h4, h5, h6, h7⟩ := insnStep_spec start stop r st p i hsi c2 hb
      (fun ht => hprev ht i post rfl) hlast hinv
    have hb1 : Bounded st1.nrs := by
      intro x n hx
      rcases (h5 x n).1 hx with hx | ⟨hx, _⟩
      · exact hb _ _ hx
      · exact hb _ _ hx
    have hin1 : ∀ x n, st1.nrs x n = true → S x n := by
      intro x n hx
      rcases (h5 x n).1 hx with hx | ⟨hx, hf⟩
      · exact hin _ _ hx
      · exact hS p i post hp n x (hin _ _ hx) hf
    obtain ⟨st', g1, g2, g3, g4, g5, g6, g7, g8⟩ := ih (p ++ [i]) st1 (by simp [hp]) hb1
      (fun ht => by
        rw [h2] at ht
        exact hti (Option.some.inj ht)) h3 h4 hin1
    refine ⟨st', ?_, g2, g3, fun x n hx => g4 x n ((h5 x n).2 (.inl hx)), ?_, ?_, ?_, ?_⟩
    · simp only [insnLoop, h1]
      exact g1
    · intro hk hcl
      have hk1 : st1.keep = false := by
        cases hkk : st1.keep with
        | false => rfl
        | true =>
          have := insnLoop_keep start stop r post st1 st' g1 hkk
          rw [this] at hk
          exact absurd hk (by decide)
      obtain ⟨hk0, hback⟩ := h6 hk1
      have hcl1 : ClosedOn (p ++ [i]) st1.nrs := by
        intro a j b hab n x hj hf
        rcases snoc_split p a b i j hab with ⟨rfl, rfl, rfl⟩ | ⟨b', rfl, rfl⟩
        · rcases (h5 _ _).1 hj with hj | ⟨hj, _⟩
          · exact (h5 _ _).2 (.inr ⟨hj, hf⟩)
          · exact (h5 _ _).2 (.inr ⟨hj, hf⟩)
        · have hj' := c5 j (by simp)
          have hjn : st.nrs j.ip n = true := by
            rcases (h5 _ _).1 hj with hj | ⟨hi, hfi⟩
            · exact hj
            · exact hback n j.ip hi hfi hj'.1 (by omega) hj'.2
          exact (h5 _ _).2 (.inl (hcl a j b' rfl n x hjn hf))
      exact ⟨hk0, (g5 hk hcl1).2⟩
    · intro c hcm
      rcases g6 c hcm with hcm | ⟨hcm, he⟩
      · rcases h7 with ⟨he, h7⟩ | ⟨_, h7⟩
        · rw [h7] at hcm
          rcases mem_addCand _ _ _ hcm with hcm | rfl
          · exact .inl hcm
          · exact .inr ⟨by simp, he⟩
        · rw [h7] at hcm
          exact .inl hcm
      · exact .inr ⟨by simp [hcm], he⟩
    · intro c hcm
      apply g7
      rcases h7 with ⟨he, h7⟩ | ⟨_, h7⟩
      · rw [h7]; exact addCand_keeps _ _ _ hcm
      · rw [h7]; exact hcm
    · intro j hj he
      rcases List.mem_cons.1 hj with rfl | hj
      · rcases h7 with ⟨_, h7⟩ | ⟨hne, _⟩
        · obtain ⟨k, hk, hkk⟩ := addCand_key st.cands j
          exact ⟨k, g7 k (by rw [h7]; exact hk), hkk⟩
        · exact absurd he hne
      · exact g8 j hj he

end Verif
