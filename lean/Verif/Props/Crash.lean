import Verif.Lemmas.Crash
import Verif.Props.Build
/-! # Properties of builds interrupted any number of times, or killed (C122) -/
set_option autoImplicit false

namespace Verif
open Spec

theorem FirstFlag_found {M a mid post : Str} (hf : FirstFlag M a mid post) : findFlags true M = some (a ++ mid, post) := by
  rcases h : findFlags true M with _ | ⟨pre, post'⟩
  · exact absurd hf.1 (findFlags_none h a mid post)
  · obtain ⟨a', mid', rfl, hf'⟩ := findFlags_some h
    obtain ⟨rfl, rfl, rfl⟩ := FirstFlag_unique hf hf'
    rfl

/-- a text with one character changed, partly written over the original -/
theorem mixed (x post : Str) (d e : Char) (k : Nat) :
    (x ++ d :: post).take k ++ (x ++ e :: post).drop k = x ++ e :: post ∨
    (x ++ d :: post).take k ++ (x ++ e :: post).drop k = x ++ d :: post := by
  by_cases h : k ≤ x.length
  · left
    rw [List.take_append_of_le_length h, List.drop_append_of_le_length h, ← List.append_assoc, List.take_append_drop]
  · right
    obtain ⟨n, rfl⟩ : ∃ n, k = x.length + (n + 1) := ⟨k - x.length - 1, by omega⟩
    rw [List.take_length_add_append, List.drop_length_add_append]
    simp [List.append_assoc]

/-- everything that can be seen of the process -/
theorem process_run (sig : Moment → Bool) (ok : Nat → Bool) (M a mid post : Str) (hr : '\r' ∉ M) (hf : FirstFlag M a mid post) :
    (processC sig ok true M).disk = leftBehind sig ok M (a ++ mid ++ '0' :: post) (a ++ mid ++ '1' :: post) ∧
    ∀ c ∈ (processC sig ok true M).seen, c = a ++ mid ++ '0' :: post ∨ c = a ++ mid ++ '1' :: post ∨ c <+: M := by
  have hR := readText_id hr
  have hF := FirstFlag_found hf
  have hM : M = a ++ mid ++ '2' :: post := hf.1.1
  have hne : M ≠ [] := by rw [hM]; simp
  have q0 : natRepr 0 = ['0'] := by decide
  have q1 : natRepr 1 = ['1'] := by decide
  have e0 : a ++ mid ++ natRepr 0 ++ post = a ++ mid ++ '0' :: post := by rw [q0]; simp
  have e1 : a ++ mid ++ natRepr 1 ++ post = a ++ mid ++ '1' :: post := by rw [q1]; simp
  have l0 : (a ++ mid ++ natRepr 0 ++ post).length = M.length := by rw [e0, hM]; simp
  have l1 : (a ++ mid ++ natRepr 1 ++ post).length = M.length := by rw [e1, hM]; simp
  have m0 := fun k => mixed (a ++ mid) post '0' '2' k
  have m1 := fun k => mixed (a ++ mid) post '1' '2' k
  rw [← e0, ← e1]
  rw [← e0, ← hM] at m0
  rw [← e1, ← hM] at m1
  clear e0 e1 q0 q1
  generalize h0 : a ++ mid ++ natRepr 0 ++ post = t0 at *
  generalize h1 : a ++ mid ++ natRepr 1 ++ post = t1 at *
  obtain ⟨s1, p1, c1, d1, f1, b1, g1, k1⟩ := patch_flag sig 0 { disk := M, seen := [M] } M (a ++ mid) post rfl rfl hR hF (by rw [h0]; exact l0) (by rw [h0]; exact m0)
  rw [h0] at f1 k1
  have K1 : ∀ c ∈ s1.seen, c = t0 ∨ c = t1 ∨ c <+: M := by
    intro c hc
    rcases k1 c hc with h | h | h
    · rw [List.mem_singleton.1 h]; exact .inr (.inr (List.prefix_refl _))
    · rw [h]; exact .inr (.inr (List.prefix_refl _))
    · exact .inl h
  unfold processC buildC leftBehind
  simp only [cm_bind, p1, if_true]
  simp only at d1
  cases he0 : early sig 0
  case true =>
    rw [he0] at f1
    simp only [Bool.true_or, if_true, d1, Bool.false_eq_true, if_false]
    exact ⟨f1, K1⟩
  simp only [Bool.false_or, Bool.false_eq_true, if_false]
  rw [he0] at f1
  simp only [Bool.false_eq_true, if_false] at f1
  cases hl0 : late sig 0
  case true =>
    simp only [if_true, d1, Bool.false_eq_true, if_false]
    exact ⟨f1, K1⟩
  simp only [Bool.false_eq_true, if_false, if_true]
  -- registered
  have hh : ∀ (s : CState) (c0 : Str), s.pending = none → s.backup = some M → s.handler = true → s.disk = c0 →
      (∀ c ∈ s.seen, c = t0 ∨ c = t1 ∨ c <+: M) →
      (restoreC sig .handler s).2.disk = afterHandler sig M c0 ∧ ∀ c ∈ (restoreC sig .handler s).2.seen, c = t0 ∨ c = t1 ∨ c <+: M := by
    intro s c0 x1 x2 x3 x4 x5
    obtain ⟨s', y1, -, -, -, y5, -, y7⟩ := restore_run sig .handler s M hne x1 x2
    rw [y1]
    refine ⟨by rw [y5, x4]; rfl, fun c hc => ?_⟩
    rcases y7 c hc with h | h
    · exact x5 c h
    · exact .inr (.inr h)
  have b1 := b1 he0
  obtain ⟨s2, p2, c2, B2, d2, f2, g2, k2⟩ := restore_run sig (.restore 0) { s1 with handler := true } M hne c1 b1
  have K2 : ∀ c ∈ s2.seen, c = t0 ∨ c = t1 ∨ c <+: M := by
    intro c hc
    rcases k2 c hc with h | h
    · exact K1 c h
    · exact .inr (.inr h)
  simp only [cm_bind, cm_modify, cm_sigint]
  cases hm0 : sig (.make 0)
  case true =>
    simp only [if_true, Bool.true_or]
    exact hh _ _ c1 b1 rfl f1 K1
  simp only [Bool.false_eq_true, if_false, Bool.false_or, p2]
  cases hs : sig (.restore 0 .start)
  case true =>
    rw [hs] at d2 f2
    simp only [Bool.true_or, Bool.and_true, if_true] at d2 f2
    simp only [Bool.true_or, if_true, d2]
    exact hh _ _ c2 B2 d2 (f2.trans f1) K2
  cases ho : sig (.restore 0 .opened)
  case true =>
    rw [hs, ho] at d2 f2
    simp only [Bool.true_or, Bool.false_or, Bool.and_true, if_true, Bool.false_eq_true, if_false] at d2 f2
    simp only [Bool.true_or, Bool.false_or, if_true, d2, Bool.false_eq_true, if_false]
    exact hh _ _ c2 B2 d2 f2 K2
  rw [hs, ho] at d2 f2
  simp only [Bool.false_or, Bool.true_and, Bool.false_eq_true, if_false] at d2 f2
  simp only [Bool.false_or, Bool.false_eq_true, if_false]
  cases hw : (sig (.restore 0 .wrote) || sig (.restore 0 .closed))
  case true =>
    rw [hw] at d2
    simp only [if_true, d2]
    exact hh _ _ c2 B2 d2 f2 K2
  rw [hw] at d2
  simp only [Bool.false_eq_true, if_false]
  cases hk0 : ok 0
  case true =>
    simp only [if_true, cm_pure, d2, Bool.false_eq_true, if_false]
    exact ⟨f2, K2⟩
  -- the second attempt
  obtain ⟨s3, p3, c3, d3, f3, b3, g3, k3⟩ := patch_flag sig 1 s2 M (a ++ mid) post c2 f2 hR hF (by rw [h1]; exact l1) (by rw [h1]; exact m1)
  rw [h1] at f3 k3
  have K3 : ∀ c ∈ s3.seen, c = t0 ∨ c = t1 ∨ c <+: M := by
    intro c hc
    rcases k3 c hc with h | h | h
    · exact K2 c h
    · rw [h]; exact .inr (.inr (List.prefix_refl _))
    · exact .inr (.inl h)
  rw [d2] at d3
  simp only [Bool.false_eq_true, if_false, cm_bind, p3]
  cases he1 : early sig 1
  case true =>
    rw [he1] at f3
    simp only [Bool.true_or, if_true, d3, Bool.false_eq_true, if_false]
    exact ⟨f3, K3⟩
  rw [he1] at f3
  simp only [Bool.false_or, Bool.false_eq_true, if_false] at f3 ⊢
  cases hl1 : late sig 1
  case true =>
    simp only [Bool.true_or, if_true, d3, Bool.false_eq_true, if_false]
    exact ⟨f3, K3⟩
  have b3 := b3 he1
  obtain ⟨s4, p4, c4, B4, d4, f4, g4, k4⟩ := restore_run sig (.restore 1) s3 M hne c3 b3
  have K4 : ∀ c ∈ s4.seen, c = t0 ∨ c = t1 ∨ c <+: M := by
    intro c hc
    rcases k4 c hc with h | h
    · exact K3 c h
    · exact .inr (.inr h)
  rw [d3, Bool.false_and] at d4
  simp only [Bool.false_or, Bool.false_eq_true, if_false, cm_sigint]
  cases hm1 : sig (.make 1)
  case true =>
    simp only [if_true, Bool.true_or, d3, Bool.false_eq_true, if_false]
    exact ⟨f3, K3⟩
  simp only [Bool.false_eq_true, if_false, Bool.false_or, p4]
  cases hs1 : sig (.restore 1 .start)
  case true =>
    rw [hs1] at f4
    simp only [if_true, Bool.true_or, d4, Bool.false_eq_true, if_false] at f4 ⊢
    exact ⟨f4.trans f3, K4⟩
  cases ho1 : sig (.restore 1 .opened)
  case true =>
    rw [hs1, ho1] at f4
    simp only [if_true, Bool.true_or, Bool.false_or, d4, Bool.false_eq_true, if_false] at f4 ⊢
    exact ⟨f4, K4⟩
  rw [hs1, ho1] at f4
  simp only [Bool.false_or, Bool.false_eq_true, if_false] at f4 ⊢
  cases (sig (.restore 1 .wrote) || sig (.restore 1 .closed))
  case true =>
    simp only [if_true, d4, Bool.false_eq_true, if_false]
    exact ⟨f4, K4⟩
  have fin : ((if ok 1 = true then CM.pure () else buildC.lastMake sig ok : CM Unit) s4).2 = s4 := by
    unfold buildC.lastMake
    cases ok 1
    · simp only [Bool.false_eq_true, if_false, cm_bind, cm_sigint]
      cases sig .last
      · cases ok 2 <;> rfl
      · rfl
    · rfl
  simp only [Bool.false_eq_true, if_false]
  rw [fin, d4]
  exact ⟨f4, K4⟩

/-! ## Which contents there are -/

/-- actions after which the content of the file is still among those recorded -/
def Records {α : Type} (m : CM α) : Prop := ∀ s, s.disk ∈ s.seen → (m s).2.disk ∈ (m s).2.seen ∧ s.seen <+: (m s).2.seen

theorem Records.bind {α β : Type} {m : CM α} {f : α → CM β} (hm : Records m) (hf : ∀ x, Records (f x)) : Records (m >>= f) := by
  intro s hs
  have h := hm s hs
  rw [cm_bind]
  rcases hms : m s with ⟨_ | x, s'⟩
  · rw [hms] at h; exact h
  · rw [hms] at h
    have h2 := hf x s' h.1
    exact ⟨h2.1, h.2.trans h2.2⟩

theorem Records.pure {α : Type} (x : α) : Records (CM.pure x) := fun s hs => ⟨hs, List.prefix_refl _⟩
theorem Records.get : Records CM.get := fun s hs => ⟨hs, List.prefix_refl _⟩
theorem Records.exit {α : Type} : Records (CM.exit : CM α) := fun s hs => ⟨hs, List.prefix_refl _⟩

theorem Records.sigint (sig : Moment → Bool) (m : Moment) : Records (sigint sig m) := by
  intro s hs; rw [cm_sigint]; exact ⟨hs, List.prefix_refl _⟩

theorem flush_records (s : CState) (hs : s.disk ∈ s.seen) : s.flush.disk ∈ s.flush.seen ∧ s.seen <+: s.flush.seen := by
  unfold CState.flush
  rcases s.pending with _ | t
  · exact ⟨hs, List.prefix_refl _⟩
  · refine ⟨List.mem_append_right _ (List.mem_map.2 ⟨t.length, List.mem_range.2 (by omega), by simp⟩), List.prefix_append _ _⟩

theorem Records.withFile {α : Type} {m : CM α} (hm : Records m) : Records (withFile m) := by
  intro s hs
  have h := hm s hs
  have h2 := flush_records _ h.1
  exact ⟨h2.1, h.2.trans h2.2⟩

theorem put_records (s : CState) (t : Str) : (s.put t).disk ∈ (s.put t).seen ∧ s.seen <+: (s.put t).seen :=
  ⟨List.mem_append_right _ (List.mem_singleton.2 rfl), List.prefix_append _ _⟩

theorem Records.backup (x : Option Str) : Records (CM.modify fun s => { s with backup := x }) := fun _ hs => ⟨hs, List.prefix_refl _⟩
theorem Records.pending (x : Option Str) : Records (CM.modify fun s => { s with pending := x }) := fun _ hs => ⟨hs, List.prefix_refl _⟩
theorem Records.handler (x : Bool) : Records (CM.modify fun s => { s with handler := x }) := fun _ hs => ⟨hs, List.prefix_refl _⟩

theorem patchC_records (sig : Moment → Bool) (lvl : Nat) : Records (patchC sig lvl) := by
  unfold patchC
  refine (Records.sigint _ _).bind fun _ => Records.bind (Records.withFile ?_) fun _ => (Records.sigint _ _).bind fun _ => Records.pure _
  refine (Records.sigint _ _).bind fun _ => Records.get.bind fun s => (Records.sigint _ _).bind fun _ =>
    (Records.backup _).bind fun _ => (Records.sigint _ _).bind fun _ => (Records.sigint _ _).bind fun _ => ?_
  rcases findFlags true (readText s.disk) with _ | ⟨pre, post⟩
  · exact Records.pure _
  · refine (Records.pending _).bind fun _ => (Records.sigint _ _).bind fun _ =>
      Records.bind (m := CM.modify fun s => s.flush.put (pre ++ natRepr lvl ++ post)) (fun s hs => ?_) fun _ => (Records.sigint _ _).bind fun _ => Records.pure _
    exact ⟨(put_records _ _).1, (flush_records s hs).2.trans (put_records _ _).2⟩

theorem restoreC_records (sig : Moment → Bool) (at_ : RestorePoint → Moment) : Records (restoreC sig at_) := by
  unfold restoreC
  refine Records.get.bind fun s => ?_
  rcases s.backup with _ | _ | ⟨c, cs⟩
  · exact (Records.pure _).bind fun _ => Records.handler _
  · exact (Records.pure _).bind fun _ => Records.handler _
  · refine (Records.sigint _ _).bind fun _ => Records.bind (m := CM.modify fun s => s.put []) (fun s _ => put_records s []) fun _ =>
      (Records.withFile ?_).bind fun _ => (Records.sigint _ _).bind fun _ => Records.handler _
    exact (Records.sigint _ _).bind fun _ => (Records.pending _).bind fun _ => Records.sigint _ _

theorem buildC_records (sig : Moment → Bool) (ok : Nat → Bool) (opt : Bool) : Records (buildC sig ok opt) := by
  have hl : Records (buildC.lastMake sig ok) := by
    unfold buildC.lastMake
    refine (Records.sigint _ _).bind fun _ => ?_
    cases ok 2
    · exact Records.exit
    · exact Records.pure _
  unfold buildC
  cases opt
  · exact hl
  · refine (patchC_records sig 0).bind fun p => ?_
    cases p
    · exact hl
    · simp only [if_true]
      refine (Records.handler _).bind fun _ => (Records.sigint _ _).bind fun _ => (restoreC_records _ _).bind fun _ => ?_
      cases ok 0
      · refine (patchC_records sig 1).bind fun _ => (Records.sigint _ _).bind fun _ => (restoreC_records _ _).bind fun _ => ?_
        cases ok 1
        · exact hl
        · exact Records.pure _
      · exact Records.pure _

/-! ## C122 -/

/-- C122: whenever and however often SIGINT arrives, the content left behind is that of the table `leftBehind`. -/
theorem C122_left (sig : Moment → Bool) (ok : Nat → Bool) (M a mid post : Str) (hr : '\r' ∉ M) (hf : FirstFlag M a mid post) :
    (processC sig ok true M).disk = leftBehind sig ok M (a ++ mid ++ '0' :: post) (a ++ mid ++ '1' :: post) :=
  (process_run sig ok M a mid post hr hf).1

/-- C122: the contents recorded begin with the first and include the last … -/
theorem C122_recorded (sig : Moment → Bool) (ok : Nat → Bool) (opt : Bool) (M : Str) :
    (processC sig ok opt M).seen.head? = some M ∧ (processC sig ok opt M).disk ∈ (processC sig ok opt M).seen := by
  have h := buildC_records sig ok opt { disk := M, seen := [M] } (List.mem_singleton.2 rfl)
  unfold processC
  have hd : ∀ l : List Str, [M] <+: l → l.head? = some M := by
    rintro l ⟨t, rfl⟩; rfl
  simp only
  split
  · have h2 := restoreC_records sig .handler _ h.1
    exact ⟨hd _ (h.2.trans h2.2), h2.1⟩
  · exact ⟨hd _ h.2, h.1⟩

/-- … and are the original text, the text with one digit changed, and pieces of the original cut off at some point: nothing else is ever
on disk, and so nothing else is left by a process that is killed at any time. -/
theorem C122_contents (sig : Moment → Bool) (ok : Nat → Bool) (M a mid post : Str) (hr : '\r' ∉ M) (hf : FirstFlag M a mid post) :
    ∀ c ∈ (processC sig ok true M).seen, c = a ++ mid ++ '0' :: post ∨ c = a ++ mid ++ '1' :: post ∨ c <+: M :=
  (process_run sig ok M a mid post hr hf).2

/-- C122: without the line, or without the option, the Makefile never changes. -/
theorem C122_unpatched (sig : Moment → Bool) (ok : Nat → Bool) (opt : Bool) (M : Str) (hr : '\r' ∉ M) (h : opt = true → NoFlag M) :
    (processC sig ok opt M).disk = M ∧ (processC sig ok opt M).seen = [M] := by
  have hl : ∀ s, (buildC.lastMake sig ok s).2 = s := by
    intro s
    unfold buildC.lastMake
    simp only [cm_bind, cm_sigint]
    cases sig .last
    · cases ok 2 <;> rfl
    · rfl
  cases opt
  · unfold processC buildC
    simp [hl]
  · have hF : findFlags true M = none := by
      rcases hx : findFlags true M with _ | ⟨pre, post⟩
      · rfl
      · obtain ⟨a, mid, -, hf⟩ := findFlags_some hx
        exact absurd hf.1 (h rfl _ _ _)
    obtain ⟨s1, p1, c1, d1, f1, -, g1⟩ := patch_none sig 0 { disk := M, seen := [M] } M rfl rfl (readText_id hr) hF
    simp only at d1 g1
    unfold processC buildC
    simp only [if_true, cm_bind, p1]
    cases (early sig 0 || sig (.patch 0 .closed))
    · simp only [Bool.false_eq_true, if_false, hl, d1]
      exact ⟨f1, g1⟩
    · simp only [if_true, d1, Bool.false_eq_true, if_false]
      exact ⟨f1, g1⟩

/-- C122: one SIGINT leaves a changed Makefile exactly if it arrives at one of the moments listed. -/
theorem C122_one_partial (sig : Moment → Bool) (ok : Nat → Bool) (M a mid post : Str) (hr : '\r' ∉ M) (hf : FirstFlag M a mid post)
    (h1 : OneSigint sig) :
    (processC sig ok true M).disk ≠ M ↔ ∃ m ∈ unsafeMoments (!ok 0), sig m = true := by
  rw [C122_left sig ok M a mid post hr hf]
  have hM : M = a ++ mid ++ '2' :: post := hf.1.1
  have hd : ∀ d : Char, d ≠ '2' → a ++ mid ++ d :: post ≠ M := by
    intro d hd e
    rw [hM] at e
    have := List.append_cancel_left e
    simp only [List.cons.injEq, and_true] at this
    exact hd this
  have h0 := hd '0' (by decide)
  have h1' := hd '1' (by decide)
  have hn : ([] : Str) ≠ M := by rw [hM]; simp
  generalize a ++ mid ++ '0' :: post = t0 at *
  generalize a ++ mid ++ '1' :: post = t1 at *
  by_cases hx : ∃ m, sig m = true
  · obtain ⟨m, hm⟩ := hx
    obtain rfl : sig = fun m' => decide (m' = m) := by
      funext m'
      by_cases e : m' = m
      · rw [e, hm]; simp
      · rw [decide_eq_false e]
        rcases hs : sig m' with _ | _
        · rfl
        · exact absurd (h1 _ _ hs hm) e
    unfold leftBehind early late afterHandler unsafeMoments
    cases m with
    | patch lvl p => cases hk : ok 0 <;> rcases lvl with _ | _ | lvl <;> cases p <;> simp [h0, h1', hn]
    | make lvl => cases hk : ok 0 <;> rcases lvl with _ | _ | lvl <;> simp [h0, h1', hn]
    | restore lvl p => cases hk : ok 0 <;> rcases lvl with _ | _ | lvl <;> cases p <;> simp [h0, h1', hn]
    | handler p => cases hk : ok 0 <;> cases p <;> simp [h0, h1', hn]
    | last => cases hk : ok 0 <;> simp [h0, h1', hn]
  · have hs : ∀ m, sig m = false := by
      intro m
      rcases h : sig m with _ | _
      · rfl
      · exact absurd ⟨m, h⟩ hx
    unfold leftBehind early late afterHandler
    simp [hs]

/-- C122: any number of SIGINTs leave the original if none is at an unsafe moment and none interrupts the exit handler. -/
theorem C122_covered_partial (sig : Moment → Bool) (ok : Nat → Bool) (M a mid post : Str) (hr : '\r' ∉ M) (hf : FirstFlag M a mid post)
    (hu : ∀ m ∈ unsafeMoments (!ok 0), sig m = false) (h1 : sig (.handler .start) = false) (h2 : sig (.handler .opened) = false) :
    (processC sig ok true M).disk = M := by
  rw [C122_left sig ok M a mid post hr hf]
  unfold leftBehind late afterHandler
  unfold unsafeMoments at hu
  cases hk : ok 0
  all_goals
    rw [hk] at hu
    simp at hu
    simp [hu, h1, h2]

/-- C122 with all SIGINTs: the exit handler does not protect the Makefile against a second one. The first arrives during `make`, when
the handler is registered, the second when it has just opened the file. -/
theorem C122_twice_refuted : ¬ ∀ (sig : Moment → Bool) (ok : Nat → Bool) (M : Str), '\r' ∉ M → ok 0 = true →
    (∀ m ∈ unsafeMoments (!ok 0), sig m = false) → (processC sig ok true M).disk = M := by
  intro h
  have := h (fun m => m = .make 0 ∨ m = .handler .opened) (fun _ => true) exMakefile (by decide) rfl (by decide)
  revert this
  decide +kernel

/-- C122 with kills: even when nothing is interrupted and everything succeeds there are moments at which the Makefile is empty,
cut off in the middle or changed. -/
theorem C122_killed_refuted : ¬ ∀ (ok : Nat → Bool) (M : Str), '\r' ∉ M →
    ∀ c ∈ (processC (fun _ => false) ok true M).seen, c = M := by
  intro h
  have := h (fun _ => true) exMakefile (by decide) cs!"ifdef X\nelse\nKBUILD" (by decide +kernel)
  revert this
  decide

/-- C122: with one interruption, at the points of `Model/Build`, both models leave the same. -/
theorem C122_refines (w : World) (b : Builder) (s : BState) (hr : '\r' ∉ s.makefile) (hh : s.handler = false)
    (a mid post : Str) (hf : FirstFlag s.makefile a mid post) (ok : Nat → Bool)
    (hk : ok 0 = true ↔ w.status s.hist ⟨makeArgv w b cs!"vmlinux", some b.kdir, none, false, a ++ mid ++ '0' :: post⟩ = some 0) :
    (processC (atPoint s.hist.length w.interrupt) ok true s.makefile).disk = (atExit (build w b true s).2).makefile := by
  rw [C122_left _ ok _ a mid post hr hf]
  obtain ⟨-, -, h3, h4, h5⟩ := build_patched w b s hr _ post (FirstFlag_found hf)
  have hne : s.makefile ≠ [] := by rw [hf.1.1]; simp
  obtain ⟨c, cs, hm⟩ := List.exists_cons_of_ne_nil hne
  have hx : (atExit (build w b true s).2).makefile =
      if (patchedBuild w b s (a ++ mid) post).2.2.2 then s.makefile else (patchedBuild w b s (a ++ mid) post).2.2.1 := by
    unfold atExit
    rw [h4, h5, hm]
    by_cases hq : (patchedBuild w b s (a ++ mid) post).2.2.2 = true
    · simp [hq]
    · simp [hq, h3]
  rw [hx]
  rw [show (⟨makeArgv w b cs!"vmlinux", some b.kdir, none, false, a ++ mid ++ '0' :: post⟩ : Run) = vmRun w b (a ++ mid ++ '0' :: post) from rfl] at hk
  clear h3 h4 h5 hx hm hf
  generalize a ++ mid = pre at *
  unfold patchedBuild leftBehind early late afterHandler
  rcases hi : w.interrupt with _ | (k | l | l)
  · by_cases s1 : w.status s.hist (vmRun w b (pre ++ '0' :: post)) = some 0
    · simp [atPoint, s1, hk.2 s1]
    · have : ok 0 = false := by
        rcases h : ok 0 with _ | _
        · rfl
        · exact absurd (hk.1 h) s1
      simp [atPoint, s1, this]
      split <;> simp
  · by_cases s1 : w.status s.hist (vmRun w b (pre ++ '0' :: post)) = some 0
    · have := hk.2 s1
      by_cases k0 : k = s.hist.length
      · simp [atPoint, k0]
      · simp [atPoint, k0, s1, this]
    · have : ok 0 = false := by
        rcases h : ok 0 with _ | _
        · rfl
        · exact absurd (hk.1 h) s1
      by_cases k0 : k = s.hist.length
      · simp [atPoint, k0]
      · by_cases k1 : k = s.hist.length + 1
        · simp [atPoint, k1, s1, this]
        · simp [atPoint, k0, k1, s1, this]
          split <;> simp
  all_goals
    have hcase : (w.status s.hist (vmRun w b (pre ++ '0' :: post)) = some 0 ∧ ok 0 = true) ∨
        (¬ w.status s.hist (vmRun w b (pre ++ '0' :: post)) = some 0 ∧ ok 0 = false) := by
      rcases h : ok 0 with _ | _
      · exact .inr ⟨fun e => by rw [hk.2 e] at h; exact absurd h (by simp), rfl⟩
      · exact .inl ⟨hk.1 h, rfl⟩
    rcases hcase with ⟨s1, s2⟩ | ⟨s1, s2⟩ <;> rcases l with _ | _ | l <;> simp [atPoint, s1, s2, hh]
    all_goals try split <;> simp

/-! ## The hypotheses can be met -/

/-- the Makefile of the examples has such a line; three histories and what they leave -/
example : '\r' ∉ exMakefile ∧ FirstFlag exMakefile cs!"ifdef X\nelse\n" cs!"KBUILD_CFLAGS\t+= -O" cs!"\nendif\n" := exFirstFlag

example : (processC (fun m => m = .make 0 ∨ m = .handler .wrote) (fun _ => true) true exMakefile).disk = exMakefile ∧
    (processC (fun m => m = .make 1) (fun _ => false) true exMakefile).disk = cs!"ifdef X\nelse\nKBUILD_CFLAGS\t+= -O1\nendif\n" ∧
    (processC (fun m => m = .restore 0 .opened ∨ m = .handler .start) (fun _ => true) true exMakefile).disk = [] := by
  decide +kernel

example : OneSigint (fun m => decide (m = .make 1)) ∧ (∃ m ∈ unsafeMoments true, decide (m = Moment.make 1) = true) := by
  refine ⟨fun m m' h h' => ?_, by decide⟩
  rw [of_decide_eq_true h, of_decide_eq_true h']

example : (∀ m ∈ unsafeMoments false, (fun m => decide (m = Moment.make 0 ∨ m = .handler .closed)) m = false) := by decide

example : NoFlag cs!"all:\n" := by
  have h : findFlags true cs!"all:\n" = none := by decide
  exact fun a mid post => findFlags_none h a mid post

example : (exWorld 1 (some (.run 1))).interrupt = some (.run 1) ∧
    (processC (atPoint 0 (some (.run 1))) (fun _ => false) true exMakefile).disk =
      (atExit (build (exWorld 1 (some (.run 1))) exBuilder true { makefile := exMakefile }).2).makefile := by
  decide +kernel

end Verif
