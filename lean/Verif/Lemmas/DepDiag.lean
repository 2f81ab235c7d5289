import Verif.Spec.DepDiag
import Verif.Lemmas.Kconfig
import Verif.Lemmas.ConfigTool
/-! # Helper lemmas: the messages of the dependency check -/
set_option autoImplicit false

namespace Verif
open Spec

/-! ## The same run -/

theorem depActualL_snd (t c : Dict Str Str) (d : List (List Str) → Str → Str) (b : List (List Str)) (n : Str) :
    (depActualL t c d b n).2 = (depActual t c d b n).2 := by
  unfold depActualL depActual
  rcases dget n t with _ | _ | ⟨_, _⟩ <;> rcases dget n c with _ | _ <;> rfl

theorem depActualL_kind (t c : Dict Str Str) (d : List (List Str) → Str → Str) (b : List (List Str)) (n : Str) :
    (depActualL t c d b n).1.map KRec.kind = (depActual t c d b n).1.map KEvent.kind := by
  unfold depActualL depActual
  rcases dget n t with _ | _ | ⟨_, _⟩ <;> rcases dget n c with _ | _ <;> rfl

theorem checkDepL_same (t c : Dict Str Str) (d : List (List Str) → Str → Str) (b : List (List Str)) (o p : Str) :
    (checkDepL t c d b o p).1.map KRec.kind = (checkDep t c d b o p).1.map KEvent.kind ∧
    (checkDepL t c d b o p).2 = (checkDep t c d b o p).2 := by
  unfold checkDepL checkDep
  cases splitEq p with
  | error x => exact ⟨rfl, rfl⟩
  | ok nw =>
    obtain ⟨n, w⟩ := nw
    have h1 := depActualL_snd t c d b n
    have h2 := depActualL_kind t c d b n
    simp only
    generalize depActualL t c d b n = x at h1 h2 ⊢
    generalize depActual t c d b n = y at h1 h2 ⊢
    obtain ⟨x1, x2⟩ := x
    obtain ⟨y1, y2⟩ := y
    simp only at h1 h2 ⊢
    subst h1
    by_cases g1 : x2 ≠ some w
    · simp only [if_pos g1]
      by_cases g2 : w = cs!"n" ∧ x2 = none
      · simp only [if_pos g2]; exact ⟨h2, trivial⟩
      · simp only [if_neg g2]
        split
        · exact ⟨by simp [h2]; rfl, rfl⟩
        · exact ⟨by simp [h2]; rfl, rfl⟩
    · simp only [if_neg g1]; exact ⟨h2, trivial⟩

theorem scripts_kind (r : List KRec) (e : List KEvent) (h : r.map KRec.kind = e.map KEvent.kind) : KRec.scripts r = scriptsOf e := by
  induction r generalizing e with
  | nil =>
    cases e with
    | nil => rfl
    | cons _ _ => simp at h
  | cons x r ih =>
    cases e with
    | nil => simp at h
    | cons y e =>
      simp only [List.map_cons, List.cons.injEq] at h
      cases x <;> cases y <;> simp only [KRec.kind, KEvent.kind] at h <;> first
        | (simp at h; done)
        | (unfold KRec.scripts scriptsOf; simp only [ih _ h.2]; done)
        | (unfold KRec.scripts scriptsOf; simp only [ih _ h.2, Sum.inl.inj h.1])

theorem checkDepsL_same (t c : Dict Str Str) (d : List (List Str) → Str → Str) (work : List (Str × Str)) : ∀ b,
    (checkDepsL t c d b work).1.map KRec.kind = (checkDeps t c d b work).1.map KEvent.kind ∧
    (checkDepsL t c d b work).2 = (checkDeps t c d b work).2 := by
  induction work with
  | nil => exact fun _ => ⟨rfl, rfl⟩
  | cons p work ih =>
    intro b
    obtain ⟨o, p⟩ := p
    obtain ⟨h1, h2⟩ := checkDepL_same t c d b o p
    unfold checkDepsL checkDeps
    generalize checkDepL t c d b o p = x at h1 h2 ⊢
    generalize checkDep t c d b o p = y at h1 h2 ⊢
    obtain ⟨x1, x2⟩ := x
    obtain ⟨y1, y2⟩ := y
    simp only at h1 h2 ⊢
    subst h2
    cases x2 with
    | error e => exact ⟨h1, rfl⟩
    | ok u =>
      simp only
      rw [scripts_kind _ _ h1]
      obtain ⟨g1, g2⟩ := ih (b ++ scriptsOf y1)
      exact ⟨by simp [h1, g1], g2⟩

theorem editConfigL_same (os : List Str) :
    (editConfigL os).1.map KRec.kind = (editConfig os).1.map KEvent.kind ∧ (editConfigL os).2 = (editConfig os).2 := by
  unfold editConfigL editConfig
  split
  · exact ⟨rfl, rfl⟩
  · split <;> split <;> simp_all [KRec.kind, KEvent.kind]

/-! ## What is shown -/

theorem stateWords_eq (n : Str) (v : Option Str) : depNameAndVal n v = stateWords n v := by cases v <;> rfl

theorem checkDepL_spec (options config : List Opt) (dflt : Str → Option Str) (toset cfg : Dict Str Str)
    (before : List (List Str)) (opt dep : Opt) (hdep : '=' ∉ dep.1)
    (hv : ∀ o ∈ options, o.2 ≠ [])
    (ht : ∀ n, dget n toset = lastValue options n) (hc : ∀ n, dget n cfg = lastValue config n)
    (hd : ∀ n v, dflt n = some v → v ≠ cs!"undef" ∧ strip v = v) :
    ∃ recs, checkDepL toset cfg (fun _ => printDefault dflt) before (Opt.text opt) (Opt.text dep) = (recs, .ok ()) ∧
      recs.map seenOf = askedDep options config dep.1 ++ (saidDep opt dep (effective options config dflt dep.1)).map .shown := by
  have h1 := depActual_spec options config dflt toset cfg before dep.1 hv ht hc (hd dep.1)
  have h1 := h1.1
  rw [← depActualL_snd] at h1
  have h2 : (depActualL toset cfg (fun _ => printDefault dflt) before dep.1).1.map seenOf = askedDep options config dep.1 := by
    unfold depActualL askedDep
    simp only [ht, hc]
    cases h1 : lastValue options dep.1 with
    | some v =>
      cases v with
      | nil => exact absurd rfl (hv _ (lastValue_mem h1))
      | cons c v => simp
    | none =>
      cases h2 : lastValue config dep.1 with
      | some v => simp
      | none => simp [seenOf]
  obtain ⟨n, w⟩ := dep
  simp only at hdep h1 h2 ⊢
  have hs := splitEq_text (n, w) hdep
  unfold checkDepL
  rw [hs]
  simp only
  generalize depActualL toset cfg (fun _ => printDefault dflt) before n = da at h1 h2 ⊢
  obtain ⟨evs, actual⟩ := da
  simp only at h1 h2 ⊢
  subst h1
  generalize effective options config dflt n = eff
  unfold saidDep
  by_cases hne : eff ≠ some w
  · rw [if_pos hne]
    by_cases hoff : w = cs!"n" ∧ eff = none
    · rw [if_pos hoff]
      refine ⟨_, rfl, ?_⟩
      have g1 : ¬ Unmet (n, w) eff := fun h => h.2.1 hoff
      have g2 : ¬ Unavailable (n, w) eff := by
        obtain ⟨rfl, -⟩ := hoff
        simp [Unavailable]
      rw [h2, if_neg g1, if_neg g2]
      simp
    · rw [if_neg hoff]
      by_cases hun : w = cs!"y" ∧ (eff = some cs!"n" ∨ eff = none) ∧ anyprefix n [cs!"HAVE_", cs!"ARCH_HAS_"] = true
      · rw [if_pos hun]
        have hun' : Unavailable (n, w) eff := by
          rw [anyprefix_caps] at hun; exact hun
        have g1 : ¬ Unmet (n, w) eff := fun h => h.2.2 hun'
        refine ⟨_, rfl, ?_⟩
        rw [List.map_append, h2, if_neg g1, if_pos hun']
        simp [seenOf, wontBeSet, LogCall.text, warnText, stateWords_eq]
      · rw [if_neg hun]
        have hun' : ¬ Unavailable (n, w) eff := by
          rw [anyprefix_caps] at hun; exact hun
        have g1 : Unmet (n, w) eff := ⟨hne, hoff, hun'⟩
        refine ⟨_, rfl, ?_⟩
        rw [List.map_append, h2, if_pos g1]
        simp [seenOf, wantsBut, LogCall.text, errorText, stateWords_eq, Opt.text]
  · rw [if_neg hne]
    rw [not_not] at hne
    subst hne
    have g1 : ¬ Unmet (n, w) (some w) := fun h => h.1 rfl
    have g2 : ¬ Unavailable (n, w) (some w) := by
      rintro ⟨h1, h2 | h2, -⟩
      · simp only [Option.some.injEq] at h1 h2
        rw [h1] at h2
        exact absurd h2 (by decide)
      · cases h2
    refine ⟨_, rfl, ?_⟩
    rw [h2, if_neg g1, if_neg g2]
    simp

theorem checkDepsL_spec (options config : List Opt) (dflt : Str → Option Str) (toset cfg : Dict Str Str)
    (work : List (Opt × Opt)) (hdep : ∀ p ∈ work, '=' ∉ p.2.1)
    (hv : ∀ o ∈ options, o.2 ≠ [])
    (ht : ∀ n, dget n toset = lastValue options n) (hc : ∀ n, dget n cfg = lastValue config n)
    (hd : ∀ n v, dflt n = some v → v ≠ cs!"undef" ∧ strip v = v) :
    ∀ before, ∃ recs, checkDepsL toset cfg (fun _ => printDefault dflt) before (work.map fun p => (Opt.text p.1, Opt.text p.2)) = (recs, .ok ()) ∧
      recs.map seenOf = work.flatMap fun p => askedDep options config p.2.1 ++
        (saidDep p.1 p.2 (effective options config dflt p.2.1)).map .shown := by
  induction work with
  | nil => exact fun _ => ⟨[], rfl, by simp⟩
  | cons p work ih =>
    intro before
    obtain ⟨r0, g1, g2⟩ := checkDepL_spec options config dflt toset cfg before p.1 p.2 (hdep p (by simp)) hv ht hc hd
    obtain ⟨r, h1, h2⟩ := ih (fun p hp => hdep p (by simp [hp])) (before ++ KRec.scripts r0)
    refine ⟨r0 ++ r, ?_, ?_⟩
    · simp only [List.map_cons, checkDepsL, g1, h1]
    · simp [g2, h2]

/-! ## Answers that matter -/

theorem checkDepL_congr (t c : Dict Str Str) (d1 d2 : List (List Str) → Str → Str) (b : List (List Str)) (o : Str) (p : Opt)
    (hp : '=' ∉ p.1) (h : dget p.1 c = none → d1 b p.1 = d2 b p.1) :
    checkDepL t c d1 b o (Opt.text p) = checkDepL t c d2 b o (Opt.text p) := by
  have : depActualL t c d1 b p.1 = depActualL t c d2 b p.1 := by
    unfold depActualL
    simp only
    cases hc : dget p.1 c with
    | some v => rcases dget p.1 t with _ | _ | ⟨_, _⟩ <;> rfl
    | none => rw [h hc]
  unfold checkDepL
  rw [splitEq_text p hp]
  simp only [this]

theorem checkDepsL_congr (t c : Dict Str Str) (d1 d2 : List (List Str) → Str → Str) (work : List (Opt × Opt))
    (hp : ∀ p ∈ work, '=' ∉ p.2.1) (h : ∀ p ∈ work, ∀ b, dget p.2.1 c = none → d1 b p.2.1 = d2 b p.2.1) : ∀ b,
    checkDepsL t c d1 b (work.map fun p => (Opt.text p.1, Opt.text p.2)) = checkDepsL t c d2 b (work.map fun p => (Opt.text p.1, Opt.text p.2)) := by
  induction work with
  | nil => exact fun _ => rfl
  | cons p work ih =>
    intro b
    have ih := ih (fun p hq => hp p (by simp [hq])) (fun p hq => h p (by simp [hq]))
    simp only [List.map_cons, checkDepsL, checkDepL_congr t c d1 d2 b _ p.2 (hp p (by simp)) (h p (by simp) b), ih]

end Verif
