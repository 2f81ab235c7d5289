import Verif.Lemmas.Shared
import Verif.Props.Later
import Mathlib.Tactic.IntervalCases
/-! # C128: builds at the same time in one source tree -/
set_option autoImplicit false

namespace Verif
open Spec

/-- texts that a process holds -/
def Held (P : Str → Prop) (n : Nat) (p : Proc) : Prop :=
  (∀ b, p.backup = some b → P b) ∧ match p.pc with
    | .opening lvl => lvl = 0 ∨ lvl = 1
    | .reading lvl got => (lvl = 0 ∨ lvl = 1) ∧ P got
    | .searching lvl data => (lvl = 0 ∨ lvl = 1) ∧ P data
    | .writing lvl text _ => P text
    | .cutting lvl len => len ≤ n
    | .rewriting _ text _ => P text
    | .draining text _ => P text
    | _ => True

theorem Held.quit {P : Str → Prop} {n : Nat} {p : Proc} (h : Held P n p) : Held P n p.quit := by
  unfold Proc.quit
  split <;> exact ⟨h.1, trivial⟩

theorem Held.step {M a mid post : Str} (hM : OnlyFlag M a mid post) (hr : '\r' ∉ M) {p : Proc} {disk : Str} (t : Tick)
    (hd : Damaged M (a ++ mid).length disk) (h : Held (Damaged M (a ++ mid).length) M.length p) :
    Held (Damaged M (a ++ mid).length) M.length (p.step disk t).1 ∧ Damaged M (a ++ mid).length (p.step disk t).2 := by
  have hq := h.quit
  obtain ⟨pc, backup, handler, exiting, built⟩ := p
  obtain ⟨hb, hp⟩ := h
  cases pc with
  | over => exact ⟨⟨hb, trivial⟩, hd⟩
  | draining text off =>
    simp only [Proc.step]
    split
    · rename_i ho; exact ⟨⟨hb, hp⟩, hd.write hp ho⟩
    · exact ⟨hq, hd⟩
  | start opt =>
    simp only [Proc.step]
    split
    · exact ⟨hq, hd⟩
    · cases opt
      · exact ⟨⟨hb, trivial⟩, hd⟩
      · exact ⟨⟨hb, .inl rfl⟩, hd⟩
  | opening lvl =>
    simp only [Proc.step]
    split
    · exact ⟨hq, hd⟩
    · exact ⟨⟨hb, hp, Damaged.nil M _⟩, hd⟩
  | reading lvl got =>
    simp only [Proc.step]
    split
    · exact ⟨hq, hd⟩
    · split
      · exact ⟨⟨hb, hp.1, hd.read hp.2⟩, hd⟩
      · rw [readText_id (hp.2.noReturn hr)]
        exact ⟨⟨fun b e => by cases e; exact hp.2, hp⟩, hd⟩
  | searching lvl data =>
    simp only [Proc.step]
    split
    · exact ⟨hq, hd⟩
    · cases hf : findFlags true data with
      | none =>
        refine ⟨⟨hb, ?_⟩, hd⟩
        by_cases hl : lvl = 0 <;> simp only [hl, if_true, if_false]
      | some x => exact ⟨⟨hb, hp.2.patch hM hp.1 hf⟩, hd⟩
  | writing lvl text off =>
    simp only [Proc.step]
    split
    · exact ⟨⟨hb, hp⟩, hd⟩
    · split
      · rename_i ho; exact ⟨⟨hb, hp⟩, hd.write hp ho⟩
      · exact ⟨⟨hb, hp.1⟩, hd⟩
  | cutting lvl len =>
    simp only [Proc.step]
    split
    · exact ⟨hq, hd⟩
    · exact ⟨⟨hb, trivial⟩, hd.resize hp⟩
  | closed lvl =>
    simp only [Proc.step]
    split
    · exact ⟨hq, hd⟩
    · exact ⟨⟨hb, trivial⟩, hd⟩
  | making lvl =>
    simp only [Proc.step]
    split
    · exact ⟨hq, hd⟩
    · exact ⟨⟨hb, trivial⟩, hd⟩
  | restore after =>
    simp only [Proc.step]
    split
    · exact ⟨hq, hd⟩
    · rcases backup with - | - | ⟨c, cs⟩
      · exact ⟨⟨hb, trivial⟩, hd⟩
      · exact ⟨⟨hb, trivial⟩, hd⟩
      · exact ⟨⟨hb, hb _ rfl⟩, Damaged.nil M _⟩
  | rewriting after text off =>
    simp only [Proc.step]
    split
    · exact ⟨⟨hb, hp⟩, hd⟩
    · split
      · rename_i ho; exact ⟨⟨hb, hp⟩, hd.write hp ho⟩
      · exact ⟨⟨hb, trivial⟩, hd⟩
  | unregister after =>
    simp only [Proc.step]
    split
    · exact ⟨hq, hd⟩
    · cases after
      · exact ⟨⟨hb, trivial⟩, hd⟩
      · exact ⟨⟨hb, .inr rfl⟩, hd⟩
      · exact ⟨⟨hb, trivial⟩, hd⟩
      · exact ⟨⟨hb, trivial⟩, hd⟩
  | normal =>
    simp only [Proc.step]
    split
    · exact ⟨hq, hd⟩
    · exact ⟨⟨hq.1, hq.2⟩, hd⟩

/-- **C128**: whatever processes do at the same time in one source tree, interrupted or killed or not, whatever the sizes of the pieces
they read and write, the Makefile never gets longer, and each of its characters is the one that was there at first, or NUL, or, where
the level of optimisation was, `0` or `1`. -/
theorem C128_contents_partial (M a mid post : Str) (opt : Nat → Bool) (sched : List (Nat × Tick)) (hM : OnlyFlag M a mid post)
    (hr : '\r' ∉ M) : Damaged M (a ++ mid).length ((Tree.init M opt).run sched).disk := by
  have key : ∀ (sched : List (Nat × Tick)) (s : Tree), Damaged M (a ++ mid).length s.disk →
      (∀ i, Held (Damaged M (a ++ mid).length) M.length (s.procs i)) → Damaged M (a ++ mid).length (s.run sched).disk := by
    intro sched
    induction sched with
    | nil => intro s hd _; exact hd
    | cons x rest ih =>
      intro s hd hp
      obtain ⟨i, t⟩ := x
      have := (hp i).step hM hr t hd
      refine ih (s.step i t) this.2 fun j => ?_
      simp only [Tree.step]
      split
      · exact this.1
      · exact hp j
  exact key sched _ (Damaged.refl M _) fun i => ⟨fun b e => (by cases e), trivial⟩

/-! ## Every process comes to its end -/

def afterWork (L : Nat) : AfterRestore → Nat
  | .finish | .exit => 0
  | .normal => 1
  | .second => 3 * L + 11

def makeWork (L lvl : Nat) : Nat := L + 4 + if lvl = 0 then 3 * L + 11 else 1

/-- turns that are left at most, without those of the exit handler -/
def Pc.work (L : Nat) : Pc → Nat
  | .over => 0
  | .normal => 1
  | .unregister a => 1 + afterWork L a
  | .rewriting a text off => (text.length - off) + 2 + afterWork L a
  | .restore a => L + 3 + afterWork L a
  | .making lvl => makeWork L lvl
  | .closed lvl => makeWork L lvl + 1
  | .cutting lvl _ => makeWork L lvl + 2
  | .writing lvl text off => makeWork L lvl + 3 + (text.length - off)
  | .searching lvl _ => makeWork L lvl + 4 + L
  | .reading lvl got => makeWork L lvl + 5 + L + (L - got.length)
  | .opening lvl => makeWork L lvl + 6 + 2 * L
  | .start _ => 6 * L + 22
  | .draining text off => 1 + (text.length - off)

/-- those of the exit handler -/
def exitWork (L : Nat) : Bool → Nat
  | true => 0
  | false => L + 5

def Proc.work (L : Nat) (p : Proc) : Nat := p.pc.work L + exitWork L p.exiting

theorem quit_work {L : Nat} {p : Proc} (h : 1 ≤ p.pc.work L) : p.quit.work L < p.work L := by
  obtain ⟨pc, backup, handler, exiting, built⟩ := p
  unfold Proc.work
  simp only at h
  cases handler <;> cases exiting
  · show 0 + (L + 5) < pc.work L + (L + 5); omega
  · show 0 + 0 < pc.work L + 0; omega
  · show L + 3 + 0 + 0 < pc.work L + (L + 5); omega
  · show 0 + 0 < pc.work L + 0; omega

theorem piece_length {text : Str} {off n : Nat} (h : off < text.length) :
    1 ≤ ((text.drop off).take (n + 1)).length := by
  simp only [List.length_take, List.length_drop]
  omega

theorem step_work {M a mid post : Str} (hM : OnlyFlag M a mid post) (hr : '\r' ∉ M) {p : Proc} {disk : Str} (t : Tick)
    (hd : Damaged M (a ++ mid).length disk) (h : Held (Damaged M (a ++ mid).length) M.length p) (ho : p.pc ≠ .over) :
    (p.step disk t).1.work M.length < p.work M.length := by
  have hn := (h.step hM hr t hd).1
  obtain ⟨pc, backup, handler, exiting, built⟩ := p
  obtain ⟨hb, hp⟩ := h
  have hq : 1 ≤ pc.work M.length →
      ({ pc := pc, backup := backup, handler := handler, exiting := exiting, built := built } : Proc).quit.work M.length <
      ({ pc := pc, backup := backup, handler := handler, exiting := exiting, built := built } : Proc).work M.length := fun h => quit_work h
  cases pc with
  | over => exact absurd rfl ho
  | draining text off =>
    simp only [Proc.step]
    split
    · rename_i hl
      have := piece_length (n := t.size) hl
      simp only [Proc.work, Pc.work]; omega
    · exact hq (by simp only [Pc.work]; omega)
  | start opt =>
    simp only [Proc.step]
    split
    · exact hq (by simp only [Pc.work]; omega)
    · cases opt <;> simp [Proc.work, Pc.work, makeWork]
      omega
  | opening lvl =>
    simp only [Proc.step]
    split
    · exact hq (by simp only [Pc.work]; omega)
    · simp only [Proc.work, Pc.work, List.length_nil]; omega
  | reading lvl got =>
    simp only [Proc.step]
    split
    · exact hq (by simp only [Pc.work]; omega)
    · split
      · rename_i hl
        have := piece_length (n := t.size) hl
        have := hd.1
        simp only [Proc.work, Pc.work, List.length_append]; omega
      · simp only [Proc.work, Pc.work]; omega
  | searching lvl data =>
    simp only [Proc.step]
    split
    · exact hq (by simp only [Pc.work]; omega)
    · rename_i hsig
      simp only [Proc.step, hsig] at hn
      cases hf : findFlags true data with
      | none =>
        simp only
        by_cases hl : lvl = 0
        · simp only [hl, if_true, Proc.work, Pc.work]; omega
        · simp only [hl, if_false, Proc.work, Pc.work]; omega
      | some x =>
        simp only [hf, Bool.false_eq_true, if_false] at hn
        have := hn.2.1
        simp only [Proc.work, Pc.work]; omega
  | writing lvl text off =>
    simp only [Proc.step]
    split
    · simp only [Proc.work, Pc.work]; omega
    · split
      · rename_i hl
        have := piece_length (n := t.size) hl
        simp only [Proc.work, Pc.work]; omega
      · simp only [Proc.work, Pc.work]; omega
  | cutting lvl len =>
    simp only [Proc.step]
    split
    · exact hq (by simp only [Pc.work]; omega)
    · simp only [Proc.work, Pc.work]; omega
  | closed lvl =>
    simp only [Proc.step]
    split
    · exact hq (by simp only [Pc.work]; omega)
    · simp only [Proc.work, Pc.work]; omega
  | making lvl =>
    simp only [Proc.step]
    split
    · exact hq (by simp only [Pc.work, makeWork]; omega)
    · simp only [Proc.work, Pc.work, makeWork]
      split
      · simp only [afterWork]; omega
      · split <;> simp only [afterWork] <;> omega
  | restore after =>
    simp only [Proc.step]
    split
    · exact hq (by simp only [Pc.work]; omega)
    · split
      · rename_i c cs
        have := (hb _ rfl).1
        simp only [Proc.work, Pc.work]; omega
      · simp only [Proc.work, Pc.work]; omega
  | rewriting after text off =>
    simp only [Proc.step]
    split
    · simp only [Proc.work, Pc.work]; omega
    · split
      · rename_i hl
        have := piece_length (n := t.size) hl
        simp only [Proc.work, Pc.work]; omega
      · simp only [Proc.work, Pc.work]; omega
  | unregister after =>
    simp only [Proc.step]
    split
    · exact hq (by simp only [Pc.work]; omega)
    · cases after
      · simp only [Proc.next, Proc.work, Pc.work, afterWork]; omega
      · simp only [Proc.next, Proc.work, Pc.work, afterWork, makeWork, Nat.one_ne_zero, if_false]; omega
      · simp only [Proc.next, Proc.work, Pc.work, afterWork]; omega
      · simp only [Proc.next, Proc.work, Pc.work, afterWork]; omega
  | normal =>
    simp only [Proc.step]
    split
    · exact hq (by simp only [Pc.work]; omega)
    · exact hq (by simp only [Pc.work]; omega)

/-- **C128**: whatever the others do and whenever SIGINT arrives, a process that gets `7 n + 27` turns, `n` being the length of the Makefile,
has ended. -/
theorem C128_ends (M a mid post : Str) (opt : Nat → Bool) (sched : List (Nat × Tick)) (i : Nat) (hM : OnlyFlag M a mid post) (hr : '\r' ∉ M)
    (hn : 7 * M.length + 27 ≤ turnsOf i sched) : (((Tree.init M opt).run sched).procs i).pc = .over := by
  have key : ∀ (sched : List (Nat × Tick)) (s : Tree), Damaged M (a ++ mid).length s.disk →
      (∀ j, Held (Damaged M (a ++ mid).length) M.length (s.procs j)) → (s.procs i).work M.length ≤ turnsOf i sched ∨ (s.procs i).pc = .over →
      ((s.run sched).procs i).pc = .over := by
    intro sched
    induction sched with
    | nil =>
      intro s hd hp hw
      rcases hw with hw | hw
      · generalize hq : s.procs i = q at hw
        simp only [Tree.run, hq]
        have h0 : q.pc.work M.length = 0 := by
          simp only [turnsOf, List.countP_nil, Proc.work] at hw; omega
        revert h0
        cases q.pc <;> simp only [Pc.work, makeWork] <;> intro h0 <;> first | rfl | omega
      · exact hw
    | cons x rest ih =>
      intro s hd hp hw
      obtain ⟨j, t⟩ := x
      have := (hp j).step hM hr t hd
      refine ih (s.step j t) this.2 (fun k => ?_) ?_
      · simp only [Tree.step]
        split
        · exact this.1
        · exact hp k
      · by_cases hj : i = j
        · subst hj
          simp only [Tree.step, if_true]
          by_cases ho : (s.procs i).pc = .over
          · right
            generalize s.procs i = q at ho
            obtain ⟨pc, backup, handler, exiting, built⟩ := q
            simp only at ho
            subst ho
            rfl
          · left
            have h1 := step_work hM hr t hd (hp i) ho
            rcases hw with hw | hw
            · have : turnsOf i ((i, t) :: rest) = turnsOf i rest + 1 := by simp [turnsOf]
              omega
            · exact absurd hw ho
        · simp only [Tree.step, if_neg hj]
          have : turnsOf i ((j, t) :: rest) = turnsOf i rest := by
            simp [turnsOf, Ne.symm hj]
          rwa [this] at hw
  refine key sched _ (Damaged.refl M _) (fun i => ⟨fun b e => (by cases e), trivial⟩) (.inl ?_)
  have : ((Tree.init M opt).procs i).work M.length = 7 * M.length + 27 := by
    simp only [Tree.init, Proc.work, Pc.work, exitWork]
    omega
  omega

/-! ## Nobody was given the option -/

/-- **C128**: as long as nobody was given `--disable-opt`, any number of processes leave the Makefile alone, and each `make` finds it so. -/
theorem C128_plain (M : Str) (sched : List (Nat × Tick)) :
    ((Tree.init M fun _ => false).run sched).disk = M ∧
    ∀ i, ∀ b ∈ (((Tree.init M fun _ => false).run sched).procs i).built, b = (none, M) := by
  have key : ∀ (sched : List (Nat × Tick)) (s : Tree), s.disk = M →
      (∀ i, (s.procs i).handler = false ∧ (∀ b ∈ (s.procs i).built, b = (none, M)) ∧
        ((s.procs i).pc = .start false ∨ (s.procs i).pc = .normal ∨ (s.procs i).pc = .over)) →
      (s.run sched).disk = M ∧ ∀ i, ∀ b ∈ ((s.run sched).procs i).built, b = (none, M) := by
    intro sched
    induction sched with
    | nil => intro s hd hp; exact ⟨hd, fun i => (hp i).2.1⟩
    | cons x rest ih =>
      intro s hd hp
      obtain ⟨i, t⟩ := x
      have hi := hp i
      have h1 : ((s.procs i).step s.disk t).2 = M ∧ ((s.procs i).step s.disk t).1.handler = false ∧
          (∀ b ∈ ((s.procs i).step s.disk t).1.built, b = (none, M)) ∧ (((s.procs i).step s.disk t).1.pc = .start false ∨
          ((s.procs i).step s.disk t).1.pc = .normal ∨ ((s.procs i).step s.disk t).1.pc = .over) := by
        generalize hP : s.procs i = p at hi ⊢
        obtain ⟨pc, backup, handler, exiting, built⟩ := p
        obtain ⟨rfl, hb, hpc⟩ := hi
        simp only at hb hpc
        rcases hpc with rfl | rfl | rfl
        · cases hs : t.sigint
          · refine ⟨?_, ?_, ?_, ?_⟩ <;> simp [Proc.step, hs, hd]
            exact fun x y h => by simpa using hb _ h
          · refine ⟨?_, ?_, ?_, ?_⟩ <;> simp [Proc.step, hs, hd, Proc.quit]
            exact fun x y h => by simpa using hb _ h
        · cases hs : t.sigint
          · refine ⟨?_, ?_, ?_, ?_⟩ <;> simp [Proc.step, hs, hd, Proc.quit]
            exact fun x y h => by simpa using hb _ h
          · refine ⟨?_, ?_, ?_, ?_⟩ <;> simp [Proc.step, hs, hd, Proc.quit]
            exact fun x y h => by simpa using hb _ h
        · refine ⟨?_, ?_, ?_, ?_⟩ <;> simp [Proc.step, hd]
          exact fun x y h => by simpa using hb _ h
      refine ih (s.step i t) h1.1 fun j => ?_
      simp only [Tree.step]
      split
      · exact h1.2
      · exact hp j
  exact key sched _ rfl fun i => ⟨rfl, fun c hc => (by cases hc), .inl rfl⟩

/-! ## Nobody is in the way of another -/

/-- what is true of a process that nobody is in the way of -/
def Solo (M disk : Str) (p : Proc) : Prop :=
  match p.pc with
  | .reading _ got => disk = M ∧ got <+: M
  | .searching _ data => disk = M ∧ data = M ∧ p.backup = some M
  | .writing _ _ _ => p.backup = some M ∧ M ≠ []
  | .cutting _ _ => p.backup = some M ∧ M ≠ []
  | .closed _ => p.backup = some M ∧ M ≠ []
  | .making lvl => (p.backup = some M ∧ (disk = M ∨ M ≠ [])) ∧ (lvl = 0 → p.handler = true)
  | .restore _ => p.backup = some M ∧ (disk = M ∨ M ≠ [])
  | .rewriting _ text off => text = M ∧ off ≤ M.length ∧ disk = M.take off
  | .draining _ _ => False
  | _ => disk = M

/-- the exit handler is registered only around `make`, and it runs only at the end -/
def Proc.Guarded (p : Proc) : Prop :=
  (p.handler = true → match p.pc with
    | .making _ | .restore _ | .rewriting _ _ _ | .unregister _ | .over => True
    | _ => False) ∧
  (p.exiting = true → match p.pc with
    | .restore .exit | .rewriting .exit _ _ | .unregister .exit | .over => True
    | _ => False)

theorem writeAt_take {M : Str} {off n : Nat} (ho : off < M.length) :
    writeAt (M.take off) off ((M.drop off).take (n + 1)) = M.take (off + ((M.drop off).take (n + 1)).length) ∧
    off + ((M.drop off).take (n + 1)).length ≤ M.length := by
  have hl : (M.take off).length = off := by rw [List.length_take]; omega
  constructor
  · unfold writeAt
    rw [hl, Nat.sub_self, List.drop_eq_nil_of_le (by omega : (M.take off).length ≤ _)]
    simp only [List.replicate_zero, List.append_nil]
    rw [List.take_of_length_le (by omega)]
    have h := List.take_append_drop off M
    generalize M.drop off = d at h ⊢
    generalize M.take off = a at h hl ⊢
    subst h
    rw [← hl, List.take_length_add_append, List.length_take]
    congr 1
    rw [List.take_eq_take_iff]
    omega
  · rw [List.length_take, List.length_drop]; omega

theorem Solo.inside {M : Str} {p : Proc} (hb : Busy p.pc = false) : Solo M M p := by
  unfold Solo
  split <;> first
    | rfl
    | (rename_i e; rw [e] at hb; cases hb)

theorem Solo.outside {M disk : Str} {p : Proc} (h : Solo M disk p) (hb : Busy p.pc = false) : disk = M := by
  unfold Solo at h
  split at h <;> first
    | exact h
    | (rename_i e; rw [e] at hb; cases hb)

theorem Proc.Guarded.free {p : Proc} (hg : p.Guarded) (hn : match p.pc with
    | .making _ | .restore _ | .rewriting _ _ _ | .unregister _ | .over => False
    | _ => True) : p.handler = false ∧ p.exiting = false := by
  obtain ⟨pc, backup, handler, exiting, built⟩ := p
  obtain ⟨h1, h2⟩ := hg
  constructor
  · cases handler
    · rfl
    · exfalso; cases pc <;> first | exact hn | exact h1 rfl
  · cases exiting
    · rfl
    · exfalso
      cases pc <;> first | exact hn | exact h2 rfl

/-- without SIGINT -/
theorem Solo.calm {M disk : Str} {p : Proc} {t : Tick} (hr : '\r' ∉ M) (ht : t.sigint = false) (hg : p.Guarded) (h : Solo M disk p) :
    (p.step disk t).1.Guarded ∧ Solo M (p.step disk t).2 (p.step disk t).1 := by
  obtain ⟨pc, backup, handler, exiting, built⟩ := p
  have no : ∀ {P : Prop}, false = true → P := fun e => by cases e
  cases pc with
  | over => exact ⟨hg, h⟩
  | draining text off => exact h.elim
  | start opt =>
    obtain ⟨rfl, rfl⟩ := hg.free trivial
    simp only [Proc.step, ht, Bool.false_eq_true, if_false]
    cases opt <;> exact ⟨⟨no, no⟩, h⟩
  | opening lvl =>
    obtain ⟨rfl, rfl⟩ := hg.free trivial
    simp only [Proc.step, ht, Bool.false_eq_true, if_false]
    exact ⟨⟨no, no⟩, h, List.nil_prefix⟩
  | reading lvl got =>
    obtain ⟨rfl, rfl⟩ := hg.free trivial
    simp only [Proc.step, ht, Bool.false_eq_true, if_false]
    obtain ⟨rfl, rest, h2⟩ := h
    subst h2
    split
    · refine ⟨⟨no, no⟩, rfl, ?_⟩
      rw [List.drop_left]
      exact (List.prefix_append_right_inj got).2 (List.take_prefix _ _)
    · rename_i hl
      have : rest = [] := by
        rw [List.length_append] at hl
        exact List.eq_nil_of_length_eq_zero (by omega)
      subst this
      rw [List.append_nil] at hr ⊢
      rw [readText_id hr]
      exact ⟨⟨no, no⟩, rfl, rfl, rfl⟩
  | searching lvl data =>
    obtain ⟨rfl, rfl⟩ := hg.free trivial
    simp only [Proc.step, ht, Bool.false_eq_true, if_false]
    obtain ⟨rfl, rfl, h3⟩ := h
    cases hf : findFlags true data with
    | none =>
      by_cases hl : lvl = 0
      · simp only [hl, if_true]; exact ⟨⟨no, no⟩, rfl⟩
      · simp only [hl, if_false]; exact ⟨⟨no, no⟩, ⟨h3, .inl rfl⟩, fun e => absurd e hl⟩
    | some x =>
      refine ⟨⟨no, no⟩, h3, ?_⟩
      rintro rfl
      have h0 : findFlags true [] = none := by decide
      rw [h0] at hf
      cases hf
  | writing lvl text off =>
    obtain ⟨rfl, rfl⟩ := hg.free trivial
    simp only [Proc.step, ht, Bool.false_eq_true, if_false]
    split <;> exact ⟨⟨no, no⟩, h⟩
  | cutting lvl len =>
    obtain ⟨rfl, rfl⟩ := hg.free trivial
    simp only [Proc.step, ht, Bool.false_eq_true, if_false]
    exact ⟨⟨no, no⟩, h⟩
  | closed lvl =>
    obtain ⟨rfl, rfl⟩ := hg.free trivial
    simp only [Proc.step, ht, Bool.false_eq_true, if_false]
    exact ⟨⟨fun _ => trivial, no⟩, ⟨h.1, .inr h.2⟩, fun e => by simp [e]⟩
  | making lvl =>
    have he : exiting = false := by
      cases exiting
      · rfl
      · exact (hg.2 rfl).elim
    subst he
    simp only [Proc.step, ht, Bool.false_eq_true, if_false]
    exact ⟨⟨fun _ => trivial, no⟩, h.1⟩
  | restore after =>
    simp only [Proc.step, ht, Bool.false_eq_true, if_false]
    obtain ⟨h1, h2⟩ := h
    simp only at h1
    subst h1
    cases M with
    | nil =>
      refine ⟨⟨fun _ => trivial, ?_⟩, ?_⟩
      · cases after <;> exact hg.2
      · rcases h2 with h2 | h2
        · exact h2
        · exact absurd rfl h2
    | cons c cs =>
      refine ⟨⟨fun _ => trivial, ?_⟩, rfl, Nat.zero_le _, rfl⟩
      cases after <;> exact hg.2
  | rewriting after text off =>
    simp only [Proc.step, ht, Bool.false_eq_true, if_false]
    obtain ⟨rfl, h2, rfl⟩ := h
    have hx : ∀ off', exiting = true → match Pc.rewriting after text off' with
        | .restore .exit | .rewriting .exit _ _ | .unregister .exit | .over => True
        | _ => False := fun off' => by cases after <;> exact hg.2
    have hx' : exiting = true → match Pc.unregister after with
        | .restore .exit | .rewriting .exit _ _ | .unregister .exit | .over => True
        | _ => False := by cases after <;> exact hg.2
    split
    · rename_i ho
      obtain ⟨e1, e2⟩ := writeAt_take (n := t.size) ho
      exact ⟨⟨fun _ => trivial, hx _⟩, rfl, e2, e1⟩
    · rename_i ho
      exact ⟨⟨fun _ => trivial, hx'⟩, List.take_of_length_le (by omega)⟩
  | unregister after =>
    simp only [Proc.step, ht, Bool.false_eq_true, if_false]
    cases after
    · exact ⟨⟨no, fun _ => trivial⟩, h⟩
    · exact ⟨⟨no, hg.2⟩, h⟩
    · exact ⟨⟨no, hg.2⟩, h⟩
    · exact ⟨⟨no, fun _ => trivial⟩, h⟩
  | normal =>
    obtain ⟨rfl, rfl⟩ := hg.free trivial
    simp only [Proc.step, ht, Bool.false_eq_true, if_false, Proc.quit]
    exact ⟨⟨no, no⟩, h⟩

/-- SIGINT where it is harmless -/
theorem safe_step {disk : Str} {p : Proc} {t : Tick} (ht : t.sigint = true) (hs : SafePc p.pc = true) :
    (p.step disk t).2 = disk ∧ ((p.step disk t).1 = p.quit ∨ p.pc = .over ∧ (p.step disk t).1 = p) := by
  obtain ⟨pc, backup, handler, exiting, built⟩ := p
  cases pc <;> first
    | (cases hs; done)
    | exact ⟨rfl, .inr ⟨rfl, rfl⟩⟩
    | (constructor <;> simp [Proc.step, ht])

/-- after it there is nothing to do, or the exit handler restores the Makefile -/
theorem safe_quit {p : Proc} (hg : p.Guarded) (hs : SafePc p.pc = true) (ho : p.pc ≠ .over) :
    p.quit.Guarded ∧ (p.quit.pc = .over ∧ (Busy p.pc = true → p.handler = false) ∨
      p.quit.pc = .restore .exit ∧ p.pc = .making 0 ∧ p.quit.backup = p.backup) := by
  obtain ⟨pc, backup, handler, exiting, built⟩ := p
  have no : ∀ {P : Prop}, false = true → P := fun e => by cases e
  cases pc with
  | over => exact absurd rfl ho
  | start opt =>
    obtain ⟨rfl, rfl⟩ := hg.free trivial
    exact ⟨⟨no, no⟩, .inl ⟨rfl, fun e => (by cases e)⟩⟩
  | opening lvl =>
    obtain ⟨rfl, rfl⟩ := hg.free trivial
    exact ⟨⟨no, no⟩, .inl ⟨rfl, fun e => (by cases e)⟩⟩
  | normal =>
    obtain ⟨rfl, rfl⟩ := hg.free trivial
    exact ⟨⟨no, no⟩, .inl ⟨rfl, fun e => (by cases e)⟩⟩
  | making lvl =>
    have hl : lvl = 0 := by simpa [SafePc] using hs
    subst hl
    have he : exiting = false := by
      cases exiting
      · rfl
      · exact (hg.2 rfl).elim
    subst he
    cases handler
    · exact ⟨⟨no, no⟩, .inl ⟨rfl, fun _ => rfl⟩⟩
    · exact ⟨⟨fun _ => trivial, fun _ => trivial⟩, .inr ⟨rfl, rfl, rfl⟩⟩
  | _ => cases hs

theorem Solo.step {M disk : Str} {p : Proc} {t : Tick} (hr : '\r' ∉ M) (ht : t.sigint = true → SafePc p.pc = true) (hg : p.Guarded)
    (h : Solo M disk p) : (p.step disk t).1.Guarded ∧ Solo M (p.step disk t).2 (p.step disk t).1 := by
  cases hs : t.sigint with
  | false => exact h.calm hr hs hg
  | true =>
    obtain ⟨e1, e2 | ⟨-, e2⟩⟩ := safe_step (disk := disk) hs (ht hs)
    · rw [e1, e2]
      by_cases ho : p.pc = .over
      · have hq : p.quit.pc = .over ∨ p.quit.pc = .restore .exit := by
          unfold Proc.quit; split
          · exact .inr rfl
          · exact .inl rfl
        have : (p.step disk t).1 = p := by
          obtain ⟨pc, backup, handler, exiting, built⟩ := p
          simp only at ho
          subst ho
          rfl
        rw [← e2, this]
        exact ⟨hg, h⟩
      · obtain ⟨g, ⟨h1, h2⟩ | ⟨h1, h2, h3⟩⟩ := safe_quit hg (ht hs) ho
        · refine ⟨g, ?_⟩
          unfold Solo
          rw [h1]
          cases hb : Busy p.pc with
          | false => exact h.outside hb
          | true =>
            exfalso
            have hh := h2 hb
            have hm : p.pc = .making 0 := by
              have := ht hs
              revert this hb
              cases p.pc <;> simp [SafePc, Busy]
            unfold Solo at h
            rw [hm] at h
            rw [h.2 rfl] at hh
            cases hh
        · refine ⟨g, ?_⟩
          unfold Solo at h ⊢
          rw [h2] at h
          rw [h1]
          exact ⟨h3.trans h.1.1, h.1.2⟩
    · rw [e1, e2]; exact ⟨hg, h⟩

/-- a process that is not busy does not change the Makefile -/
theorem idle_step {disk : Str} {p : Proc} {t : Tick} (hg : p.Guarded) (hb : Busy p.pc = false) :
    (p.step disk t).2 = disk ∧ (p.step disk t).1.Guarded := by
  obtain ⟨pc, backup, handler, exiting, built⟩ := p
  have no : ∀ {P : Prop}, false = true → P := fun e => by cases e
  cases pc with
  | over => exact ⟨rfl, hg⟩
  | start opt =>
    obtain ⟨rfl, rfl⟩ := hg.free trivial
    simp only [Proc.step]
    split
    · exact ⟨rfl, no, no⟩
    · cases opt <;> exact ⟨rfl, no, no⟩
  | opening lvl =>
    obtain ⟨rfl, rfl⟩ := hg.free trivial
    simp only [Proc.step]
    split <;> exact ⟨rfl, no, no⟩
  | normal =>
    obtain ⟨rfl, rfl⟩ := hg.free trivial
    simp only [Proc.step]
    split <;> exact ⟨rfl, no, no⟩
  | _ => cases hb

/-- `G` holds of every process, and `S` of the one that is busy -/
theorem apart_run {M : Str} {G : Proc → Prop} {S : Str → Proc → Prop}
    (hS : ∀ disk p t, (t.sigint = true → SafePc p.pc = true) → G p → S disk p → G (p.step disk t).1 ∧ S (p.step disk t).2 (p.step disk t).1)
    (hI : ∀ disk p t, G p → Busy p.pc = false → (p.step disk t).2 = disk ∧ G (p.step disk t).1)
    (hin : ∀ p, G p → Busy p.pc = false → S M p) (hout : ∀ disk p, S disk p → Busy p.pc = false → disk = M) :
    ∀ (sched : List (Nat × Tick)) (s : Tree), (∀ i, G (s.procs i)) →
    ((∀ i, Busy (s.procs i).pc = false) → s.disk = M) → (∀ i, Busy (s.procs i).pc = true → S s.disk (s.procs i)) →
    Mild s sched → NeverTogether s sched →
    ((∀ i, Busy ((s.run sched).procs i).pc = false) → (s.run sched).disk = M) ∧ ∀ i, G ((s.run sched).procs i) := by
  intro sched
  induction sched with
  | nil => intro s hg h _ _ _; exact ⟨h, hg⟩
  | cons x rest ih =>
    intro s hg h1 h2 hc ha
    obtain ⟨i, t⟩ := x
    obtain ⟨ht, hc'⟩ := hc
    have ha' : OneBusy (s.step i t) := by
      cases rest with
      | nil => exact ha.2
      | cons y _ => obtain ⟨j, t'⟩ := y; exact ha.2.1
    have hself : (s.step i t).procs i = ((s.procs i).step s.disk t).1 := by simp [Tree.step]
    have hother : ∀ j, j ≠ i → (s.step i t).procs j = s.procs j := fun j hj => by simp [Tree.step, hj]
    have hdisk : (s.step i t).disk = ((s.procs i).step s.disk t).2 := rfl
    have hg' : ∀ p', ((s.procs i).step s.disk t).1 = p' → G p' → ∀ j, G ((s.step i t).procs j) := by
      rintro p' rfl hp j
      by_cases hj : j = i
      · rw [hj, hself]; exact hp
      · rw [hother j hj]; exact hg j
    have solo : (∀ j, j ≠ i → Busy (s.procs j).pc = false) → S s.disk (s.procs i) →
        ((∀ j, Busy (((s.step i t).run rest).procs j).pc = false) → ((s.step i t).run rest).disk = M) ∧
        ∀ j, G (((s.step i t).run rest).procs j) := by
      intro hn hs
      have hst := hS _ _ t ht (hg i) hs
      refine ih (s.step i t) (hg' _ rfl hst.1) (fun hb => ?_) (fun j hb => ?_) hc' ha.2
      · have hb' := hb i
        rw [hself] at hb'
        rw [hdisk]
        exact hout _ _ hst.2 hb'
      · by_cases hj : j = i
        · rw [hj, hself, hdisk]; exact hst.2
        · rw [hother j hj, hn j hj] at hb; cases hb
    cases hbi : Busy (s.procs i).pc with
    | true =>
      refine solo (fun j hj => ?_) (h2 i hbi)
      cases hbj : Busy (s.procs j).pc with
      | false => rfl
      | true => exact absurd (ha.1 _ _ hbj hbi) hj
    | false =>
      by_cases hj : ∃ j, Busy (s.procs j).pc = true
      · obtain ⟨j, hbj⟩ := hj
        have hji : j ≠ i := by rintro rfl; rw [hbi] at hbj; cases hbj
        obtain ⟨e1, e2⟩ := hI s.disk _ t (hg i) hbi
        refine ih (s.step i t) (hg' _ rfl e2) (fun hb => ?_) (fun l hb => ?_) hc' ha.2
        · have := hb j
          rw [hother j hji, hbj] at this
          cases this
        · have hl : l = j := ha' l j hb (by rw [hother j hji]; exact hbj)
          subst hl
          rw [hother l hji, hdisk, e1]
          exact h2 l hbj
      · have hn : ∀ j, Busy (s.procs j).pc = false := fun j => by
          cases hbj : Busy (s.procs j).pc with
          | false => rfl
          | true => exact absurd ⟨j, hbj⟩ hj
        refine solo (fun j _ => hn j) ?_
        rw [h1 hn]
        exact hin _ (hg i) hbi

/-- **C128**: as long as SIGINT arrives only where it is harmless (while the first `make` runs, say) and no two processes are at any time both between the opening of the Makefile for the
patch and the end of restoring it, the Makefile is as it was whenever nobody is. -/
theorem C128_apart_partial (M : Str) (opt : Nat → Bool) (sched : List (Nat × Tick)) (hr : '\r' ∉ M) (hc : Mild (Tree.init M opt) sched)
    (ha : NeverTogether (Tree.init M opt) sched) (hn : ∀ i, Busy (((Tree.init M opt).run sched).procs i).pc = false) :
    ((Tree.init M opt).run sched).disk = M :=
  (apart_run (G := Proc.Guarded) (S := Solo M) (fun _ _ _ ht hg h => h.step hr ht hg) (fun _ _ _ hg hb => idle_step hg hb)
    (fun _ _ hb => Solo.inside hb) (fun _ _ h hb => h.outside hb) sched (Tree.init M opt)
    (fun _ => ⟨fun e => (by cases e), fun e => (by cases e)⟩) (fun _ => rfl)
    (fun _ e => (by cases e)) hc ha).1 hn

/-- what is on disk while the Makefile is patched; `m` are the patched texts -/
def Exact (M : Str) (m : Nat → Str) (disk : Str) (p : Proc) : Prop :=
  match p.pc with
  | .reading lvl _ => lvl = 0 ∨ lvl = 1
  | .searching lvl _ => lvl = 0 ∨ lvl = 1
  | .writing lvl text off => (lvl = 0 ∨ lvl = 1) ∧ text = m lvl ∧ off ≤ M.length ∧ disk = text.take off ++ M.drop off
  | .cutting lvl len => (lvl = 0 ∨ lvl = 1) ∧ len = M.length ∧ disk = m lvl
  | .closed lvl => (lvl = 0 ∨ lvl = 1) ∧ disk = m lvl
  | .making lvl => (lvl = 0 ∨ lvl = 1) ∧ disk = m lvl
  | _ => True

/-- levels, and what was found by `make` -/
def Levels (m : Nat → Str) (p : Proc) : Prop :=
  (∀ lvl, p.pc = .opening lvl → lvl = 0 ∨ lvl = 1) ∧ ∀ lvl c, (some lvl, c) ∈ p.built → c = m lvl

theorem Levels.quit {m : Nat → Str} {p : Proc} (h : Levels m p) : Levels m p.quit := by
  unfold Proc.quit
  split <;> exact ⟨fun lvl e => (by cases e), h.2⟩

theorem writeAt_over {M text : Str} {off n : Nat} (hl : text.length = M.length) (ho : off < text.length) :
    writeAt (text.take off ++ M.drop off) off ((text.drop off).take (n + 1)) =
      text.take (off + ((text.drop off).take (n + 1)).length) ++ M.drop (off + ((text.drop off).take (n + 1)).length) ∧
    off + ((text.drop off).take (n + 1)).length ≤ M.length := by
  have h1 : (text.take off).length = off := by rw [List.length_take]; omega
  have h2 : (text.take off ++ M.drop off).length = M.length := by rw [List.length_append, h1, List.length_drop]; omega
  constructor
  · unfold writeAt
    rw [h2, Nat.sub_eq_zero_of_le (by omega), List.replicate_zero, List.append_nil]
    rw [List.take_left' h1]
    congr 1
    · have h := List.take_append_drop off text
      generalize text.drop off = d at h ⊢
      generalize text.take off = a at h h1 ⊢
      subst h
      rw [← h1, List.take_length_add_append, List.length_take]
      congr 1
      rw [List.take_eq_take_iff]
      omega
    · rw [List.drop_append, h1, List.drop_eq_nil_of_le (by omega), List.nil_append, List.drop_drop]
      congr 1
      omega
  · rw [List.length_take, List.length_drop]; omega

theorem Exact.calm {M disk : Str} {m : Nat → Str} {p : Proc} {t : Tick} (ht : t.sigint = false)
    (hm : ∀ lvl, (lvl = 0 ∨ lvl = 1) → (m lvl).length = M.length ∧ ∃ pre post, findFlags true M = some (pre, post) ∧ pre ++ natRepr lvl ++ post = m lvl)
    (hs : Solo M disk p) (hl : Levels m p) (h : Exact M m disk p) :
    Levels m (p.step disk t).1 ∧ Exact M m (p.step disk t).2 (p.step disk t).1 := by
  have hq := hl.quit
  obtain ⟨pc, backup, handler, exiting, built⟩ := p
  obtain ⟨hl1, hl2⟩ := hl
  simp only at hl2
  cases pc with
  | over => exact ⟨⟨hl1, hl2⟩, trivial⟩
  | draining text off => exact hs.elim
  | start opt =>
    simp only [Proc.step, ht, Bool.false_eq_true, if_false]
    cases opt
    · exact ⟨⟨fun lvl e => (by cases e), hl2⟩, trivial⟩
    · exact ⟨⟨fun lvl e => (by cases e; exact .inl rfl), hl2⟩, trivial⟩
  | opening lvl =>
    simp only [Proc.step, ht, Bool.false_eq_true, if_false]
    exact ⟨⟨fun lvl e => (by cases e), hl2⟩, hl1 lvl rfl⟩
  | reading lvl got =>
    simp only [Proc.step, ht, Bool.false_eq_true, if_false]
    split <;> exact ⟨⟨fun lvl e => (by cases e), hl2⟩, h⟩
  | searching lvl data =>
    simp only [Proc.step, ht, Bool.false_eq_true, if_false]
    obtain ⟨rfl, rfl, -⟩ := hs
    obtain ⟨-, pre, post, hf, he⟩ := hm lvl h
    simp only [hf]
    exact ⟨⟨fun lvl e => (by cases e), hl2⟩, h, he, Nat.zero_le _, rfl⟩
  | writing lvl text off =>
    simp only [Proc.step, ht, Bool.false_eq_true, if_false]
    obtain ⟨h1, rfl, h3, rfl⟩ := h
    have hlen := (hm lvl h1).1
    split
    · rename_i ho
      obtain ⟨e1, e2⟩ := writeAt_over (n := t.size) hlen ho
      exact ⟨⟨fun lvl e => (by cases e), hl2⟩, h1, rfl, e2, e1⟩
    · rename_i ho
      refine ⟨⟨fun lvl e => (by cases e), hl2⟩, h1, hlen, ?_⟩
      rw [List.take_of_length_le (by omega), List.drop_eq_nil_of_le (by omega), List.append_nil]
  | cutting lvl len =>
    simp only [Proc.step, ht, Bool.false_eq_true, if_false]
    obtain ⟨h1, rfl, rfl⟩ := h
    refine ⟨⟨fun lvl e => (by cases e), hl2⟩, h1, ?_⟩
    simp only [resize, ← (hm lvl h1).1, List.take_length, Nat.sub_self, List.replicate_zero, List.append_nil]
  | closed lvl =>
    simp only [Proc.step, ht, Bool.false_eq_true, if_false]
    exact ⟨⟨fun lvl e => (by cases e), hl2⟩, h⟩
  | making lvl =>
    simp only [Proc.step, ht, Bool.false_eq_true, if_false]
    refine ⟨⟨fun lvl e => (by cases e), fun lvl' c hc => ?_⟩, trivial⟩
    rcases List.mem_cons.1 hc with e | hc
    · cases e; exact h.2
    · exact hl2 _ _ hc
  | restore after =>
    simp only [Proc.step, ht, Bool.false_eq_true, if_false]
    split <;> exact ⟨⟨fun lvl e => (by cases e), hl2⟩, trivial⟩
  | rewriting after text off =>
    simp only [Proc.step, ht, Bool.false_eq_true, if_false]
    split <;> exact ⟨⟨fun lvl e => (by cases e), hl2⟩, trivial⟩
  | unregister after =>
    simp only [Proc.step, ht, Bool.false_eq_true, if_false]
    cases after
    · exact ⟨⟨fun lvl e => (by cases e), hl2⟩, trivial⟩
    · exact ⟨⟨fun lvl e => (by cases e; exact .inr rfl), hl2⟩, trivial⟩
    · exact ⟨⟨fun lvl e => (by cases e), hl2⟩, trivial⟩
    · exact ⟨⟨fun lvl e => (by cases e), hl2⟩, trivial⟩
  | normal =>
    simp only [Proc.step, ht, Bool.false_eq_true, if_false, Proc.quit]
    split
    · refine ⟨⟨fun lvl e => (by cases e), fun lvl' c hc => ?_⟩, trivial⟩
      rcases List.mem_cons.1 hc with e | hc
      · cases e
      · exact hl2 _ _ hc
    · refine ⟨⟨fun lvl e => (by cases e), fun lvl' c hc => ?_⟩, trivial⟩
      rcases List.mem_cons.1 hc with e | hc
      · cases e
      · exact hl2 _ _ hc

theorem Exact.step {M disk : Str} {m : Nat → Str} {p : Proc} {t : Tick} (ht : t.sigint = true → SafePc p.pc = true)
    (hm : ∀ lvl, (lvl = 0 ∨ lvl = 1) → (m lvl).length = M.length ∧ ∃ pre post, findFlags true M = some (pre, post) ∧ pre ++ natRepr lvl ++ post = m lvl)
    (hs : Solo M disk p) (hl : Levels m p) (h : Exact M m disk p) :
    Levels m (p.step disk t).1 ∧ Exact M m (p.step disk t).2 (p.step disk t).1 := by
  cases hsig : t.sigint with
  | false => exact h.calm hsig hm hs hl
  | true =>
    obtain ⟨e1, e2 | ⟨-, e2⟩⟩ := safe_step (disk := disk) hsig (ht hsig)
    · rw [e1, e2]
      refine ⟨hl.quit, ?_⟩
      unfold Proc.quit
      split <;> trivial
    · rw [e1, e2]; exact ⟨hl, h⟩

theorem idle_levels {disk : Str} {m : Nat → Str} {p : Proc} {t : Tick} (hl : Levels m p)
    (hb : Busy p.pc = false) : Levels m (p.step disk t).1 := by
  cases ht : t.sigint with
  | true =>
    have hs : SafePc p.pc = true := by
      revert hb
      cases p.pc <;> simp [SafePc, Busy]
    obtain ⟨-, e2 | ⟨-, e2⟩⟩ := safe_step (disk := disk) ht hs
    · rw [e2]; exact hl.quit
    · rw [e2]; exact hl
  | false =>
  obtain ⟨pc, backup, handler, exiting, built⟩ := p
  obtain ⟨hl1, hl2⟩ := hl
  simp only at hl2
  cases pc with
  | over => exact ⟨hl1, hl2⟩
  | start opt =>
    simp only [Proc.step, ht, Bool.false_eq_true, if_false]
    cases opt
    · exact ⟨fun lvl e => (by cases e), hl2⟩
    · exact ⟨fun lvl e => (by cases e; exact .inl rfl), hl2⟩
  | opening lvl =>
    simp only [Proc.step, ht, Bool.false_eq_true, if_false]
    exact ⟨fun lvl e => (by cases e), hl2⟩
  | normal =>
    simp only [Proc.step, ht, Bool.false_eq_true, if_false, Proc.quit]
    split
    · refine ⟨fun lvl e => (by cases e), fun lvl' c hc => ?_⟩
      rcases List.mem_cons.1 hc with e | hc
      · cases e
      · exact hl2 _ _ hc
    · refine ⟨fun lvl e => (by cases e), fun lvl' c hc => ?_⟩
      rcases List.mem_cons.1 hc with e | hc
      · cases e
      · exact hl2 _ _ hc
  | _ => cases hb

/-- **C128**: under the same conditions, whenever `make` is started for a build with a level of optimisation, it finds the Makefile with
just that level in place of the first `-O2`. -/
theorem C128_level_partial (M a mid post : Str) (opt : Nat → Bool) (sched : List (Nat × Tick)) (hr : '\r' ∉ M)
    (hM : FirstFlag M a mid post) (hc : Mild (Tree.init M opt) sched) (ha : NeverTogether (Tree.init M opt) sched) (i lvl : Nat) (c : Str)
    (hb : (some lvl, c) ∈ (((Tree.init M opt).run sched).procs i).built) : c = a ++ mid ++ natRepr lvl ++ post := by
  have hf : findFlags true M = some (a ++ mid, post) := by
    cases hf : findFlags true M with
    | none => exact absurd hM.1 (findFlags_none hf _ _ _)
    | some x =>
      obtain ⟨pre, post'⟩ := x
      obtain ⟨a', mid', rfl, h⟩ := findFlags_some hf
      obtain ⟨rfl, rfl, rfl⟩ := FirstFlag_unique hM h
      rfl
  have hm : ∀ lvl, (lvl = 0 ∨ lvl = 1) → (a ++ mid ++ natRepr lvl ++ post).length = M.length ∧
      ∃ pre post', findFlags true M = some (pre, post') ∧ pre ++ natRepr lvl ++ post' = a ++ mid ++ natRepr lvl ++ post := by
    intro lvl hl
    refine ⟨?_, _, _, hf, rfl⟩
    have h1 : (natRepr lvl).length = 1 := by rcases hl with rfl | rfl <;> decide
    conv_rhs => rw [hM.1.1]
    simp only [List.length_append, List.length_cons, h1]
    omega
  exact ((apart_run (G := fun p => p.Guarded ∧ Levels (fun lvl => a ++ mid ++ natRepr lvl ++ post) p)
    (S := fun disk p => Solo M disk p ∧ Exact M (fun lvl => a ++ mid ++ natRepr lvl ++ post) disk p)
    (fun _ _ _ ht hg h => by
      have e1 := h.1.step hr ht hg.1
      have e2 := h.2.step ht hm h.1 hg.2
      exact ⟨⟨e1.1, e2.1⟩, e1.2, e2.2⟩)
    (fun _ _ _ hg hb => ⟨(idle_step hg.1 hb).1, (idle_step hg.1 hb).2, idle_levels hg.2 hb⟩)
    (fun p _ hb => ⟨Solo.inside hb, by
      unfold Exact
      split <;> first
        | trivial
        | (rename_i e; rw [e] at hb; cases hb)⟩)
    (fun _ _ h hb => h.1.outside hb) sched (Tree.init M opt)
    (fun _ => ⟨⟨fun e => (by cases e), fun e => (by cases e)⟩, fun _ e => (by cases e), fun _ _ e => (by cases e)⟩) (fun _ => rfl)
    (fun _ e => (by cases e)) hc ha).2 i).2.2 lvl c hb

/-- processes without the option -/
theorem plain_step {disk : Str} {p : Proc} {t : Tick} (h1 : p.handler = false)
    (h2 : p.pc = .start false ∨ p.pc = .normal ∨ p.pc = .over) :
    (p.step disk t).1.handler = false ∧
    ((p.step disk t).1.pc = .start false ∨ (p.step disk t).1.pc = .normal ∨ (p.step disk t).1.pc = .over) := by
  obtain ⟨pc, backup, handler, exiting, built⟩ := p
  simp only at h1 h2
  subst h1
  rcases h2 with rfl | rfl | rfl <;> cases hs : t.sigint <;> simp [Proc.step, hs, Proc.quit]

/-- one process with the option is never in the way of the others -/
theorem single_apart (M : Str) (opt : Nat → Bool) (k : Nat) (sched : List (Nat × Tick)) (hk : ∀ i, i ≠ k → opt i = false) :
    NeverTogether (Tree.init M opt) sched ∧ ∀ i, i ≠ k → Busy (((Tree.init M opt).run sched).procs i).pc = false := by
  have key : ∀ (sched : List (Nat × Tick)) (s : Tree), (∀ i, i ≠ k → (s.procs i).handler = false ∧
      ((s.procs i).pc = .start false ∨ (s.procs i).pc = .normal ∨ (s.procs i).pc = .over)) →
      NeverTogether s sched ∧ ∀ i, i ≠ k → Busy ((s.run sched).procs i).pc = false := by
    intro sched
    have one : ∀ s : Tree, (∀ i, i ≠ k → (s.procs i).handler = false ∧
        ((s.procs i).pc = .start false ∨ (s.procs i).pc = .normal ∨ (s.procs i).pc = .over)) →
        ∀ i, i ≠ k → Busy (s.procs i).pc = false := by
      intro s h i hi
      rcases (h i hi).2 with e | e | e <;> rw [e] <;> rfl
    have one' : ∀ s : Tree, (∀ i, i ≠ k → Busy (s.procs i).pc = false) → OneBusy s := by
      intro s h i j hi hj
      have e : ∀ l, Busy (s.procs l).pc = true → l = k := fun l hl => by
        by_contra hn; rw [h l hn] at hl; cases hl
      rw [e i hi, e j hj]
    induction sched with
    | nil => intro s h; exact ⟨one' s (one s h), one s h⟩
    | cons x rest ih =>
      intro s h
      obtain ⟨i, t⟩ := x
      have := ih (s.step i t) fun j hj => by
        simp only [Tree.step]
        split
        · rename_i e; subst e; exact plain_step (h j hj).1 (h j hj).2
        · exact h j hj
      exact ⟨⟨one' s (one s h), this.1⟩, this.2⟩
  exact key sched (Tree.init M opt) fun i hi => ⟨rfl, .inl (by simp [Tree.init, hk i hi])⟩

/-- **C128**: one process with `--disable-opt` beside any number without it: unless SIGINT arrives at an unfortunate time, the Makefile is as it was as soon
as the one is over, and its attempts found it patched. -/
theorem C128_single (M : Str) (opt : Nat → Bool) (k : Nat) (sched : List (Nat × Tick)) (hr : '\r' ∉ M) (hc : Mild (Tree.init M opt) sched)
    (hk : ∀ i, i ≠ k → opt i = false) :
    ((((Tree.init M opt).run sched).procs k).pc = .over → ((Tree.init M opt).run sched).disk = M) ∧
    ∀ a mid post lvl c, FirstFlag M a mid post → (some lvl, c) ∈ (((Tree.init M opt).run sched).procs k).built →
      c = a ++ mid ++ natRepr lvl ++ post := by
  obtain ⟨h1, h2⟩ := single_apart M opt k sched hk
  refine ⟨fun ho => C128_apart_partial M opt sched hr hc h1 fun i => ?_, fun a mid post lvl c hM hb =>
    C128_level_partial M a mid post opt sched hr hM hc h1 k lvl c hb⟩
  by_cases hi : i = k
  · rw [hi, ho]; rfl
  · exact h2 i hi

/-! ## Two at the same time -/

/-- turns of process `i`, with pieces longer than the Makefile of the example -/
def turns (i n : Nat) : List (Nat × Tick) := List.replicate n (i, { size := 99 })

/-- the same with `make` failing -/
def badTurns (i n : Nat) : List (Nat × Tick) := List.replicate n (i, { size := 99, ok := false })

/-- the Makefile of the example with level 0 -/
def exPatched : Str := cs!"ifdef X\nelse\nKBUILD_CFLAGS\t+= -O0\nendif\n"

/-- a build with `--disable-opt` that succeeds at once takes 14 turns, and after 9 `make` is about to read the Makefile -/
theorem exAlone : ((Tree.init exMakefile fun _ => true).run (turns 0 14)).disk = exMakefile ∧
    (((Tree.init exMakefile fun _ => true).run (turns 0 14)).procs 0).pc = .over ∧
    (((Tree.init exMakefile fun _ => true).run (turns 0 9)).procs 0).pc = .making 0 ∧
    (((Tree.init exMakefile fun _ => true).run (turns 0 14)).procs 0).built = [(some 0, exPatched)] := by
  decide +kernel

/-- processes 0 and 1 were given the option -/
def two (i : Nat) : Bool := i == 0 || i == 1

theorem Spec.Calm.mild : ∀ {sched : List (Nat × Tick)} (_ : Calm sched) (s : Tree), Mild s sched
  | [], _, _ => trivial
  | (i, t) :: rest, h, s =>
    ⟨fun e => (by rw [h (i, t) (List.mem_cons_self ..)] at e; cases e), Calm.mild (fun x hx => h x (List.mem_cons_of_mem _ hx)) _⟩

/-- a check of `Mild` -/
def mildCheck (s : Tree) : List (Nat × Tick) → Bool
  | [] => true
  | (i, t) :: rest => (!t.sigint || SafePc (s.procs i).pc) && mildCheck (s.step i t) rest

theorem mild_of_check : ∀ (sched : List (Nat × Tick)) (s : Tree), mildCheck s sched = true → Mild s sched
  | [], _, _ => trivial
  | (i, t) :: rest, s, h => by
    rw [mildCheck, Bool.and_eq_true] at h
    refine ⟨fun e => ?_, mild_of_check rest _ h.2⟩
    have := h.1
    rw [e] at this
    exact this

theorem calm_of {sched : List (Nat × Tick)} (h : sched.all (fun x => !x.2.sigint) = true) : Calm sched := fun x hx => by
  simpa using List.all_eq_true.1 h x hx

/-- a process without a turn stays where it is -/
theorem run_other {i : Nat} : ∀ (sched : List (Nat × Tick)) (s : Tree), (∀ x ∈ sched, x.1 ≠ i) → (s.run sched).procs i = s.procs i
  | [], _, _ => rfl
  | (j, t) :: rest, s, h => by
    have hj : i ≠ j := fun e => h _ (List.mem_cons_self ..) e.symm
    rw [Tree.run, run_other rest _ fun x hx => h x (List.mem_cons_of_mem _ hx)]
    simp [Tree.step, hj]

/-- nobody with the option is unfinished -/
theorem two_over {M : Str} {sched : List (Nat × Tick)} (h0 : (((Tree.init M two).run sched).procs 0).pc = .over)
    (h1 : (((Tree.init M two).run sched).procs 1).pc = .over) :
    ∀ i, two i = true → (((Tree.init M two).run sched).procs i).pc = .over := by
  intro i hi
  simp only [two, Bool.or_eq_true, beq_iff_eq] at hi
  rcases hi with rfl | rfl
  · exact h0
  · exact h1

/-- Process 1 fails to build without optimisation. When it tries again, process 0 has patched the Makefile. Process 1 restores
what it found then, after process 0 restored the Makefile. -/
def overlap : List (Nat × Tick) := badTurns 1 14 ++ turns 0 9 ++ badTurns 1 4 ++ turns 0 5 ++ turns 1 5

theorem overlap_run : ((Tree.init exMakefile two).run overlap).disk = exPatched ∧
    (((Tree.init exMakefile two).run overlap).procs 0).pc = .over ∧ (((Tree.init exMakefile two).run overlap).procs 1).pc = .over ∧
    findFlags true exPatched = none ∧ exPatched ≠ exMakefile := by
  decide +kernel

/-- **C128**, what is false: when processes were not interrupted and are over, the Makefile may be left without optimisation, for good:
no later run finds anything to patch in it. -/
theorem C128_overlap_refuted : ∃ (M : Str) (opt : Nat → Bool) (sched : List (Nat × Tick)), Calm sched ∧ '\r' ∉ M ∧
    (∀ i, opt i = true → (((Tree.init M opt).run sched).procs i).pc = .over) ∧ (∀ i, opt i = false → ∀ x ∈ sched, x.1 ≠ i) ∧
    ((Tree.init M opt).run sched).disk ≠ M ∧ NoFlag ((Tree.init M opt).run sched).disk := by
  obtain ⟨h1, h2, h3, h4, h5⟩ := overlap_run
  refine ⟨exMakefile, two, overlap, calm_of (by decide), by decide, two_over h2 h3, ?_, ?_, ?_⟩
  · intro i hi x hx e
    have : ∀ x ∈ overlap, two x.1 = true := by decide
    rw [← e, this x hx] at hi
    cases hi
  · rw [h1]; exact h5
  · rw [h1]; exact findFlags_none h4

/-- Process 1 reads the Makefile when process 0 has written only the first 34 characters of it back. -/
def half : List (Nat × Tick) :=
  turns 0 11 ++ [(0, { size := 33 })] ++ turns 1 4 ++ turns 0 3 ++ turns 1 10

theorem half_run : ((Tree.init exMakefile two).run half).disk = exMakefile.take 34 ∧
    (((Tree.init exMakefile two).run half).procs 0).pc = .over ∧ (((Tree.init exMakefile two).run half).procs 1).pc = .over ∧
    exMakefile.length = 40 := by
  decide +kernel

/-- **C128**, what is false: when processes were not interrupted, each `make` succeeded and all are over, a part of the Makefile may be
lost. -/
theorem C128_short_refuted : ∃ (M : Str) (opt : Nat → Bool) (sched : List (Nat × Tick)), Calm sched ∧ '\r' ∉ M ∧
    (∀ x ∈ sched, x.2.ok = true) ∧
    (∀ i, opt i = true → (((Tree.init M opt).run sched).procs i).pc = .over) ∧ (∀ i, opt i = false → ∀ x ∈ sched, x.1 ≠ i) ∧
    ∃ lost, lost ≠ [] ∧ M = ((Tree.init M opt).run sched).disk ++ lost := by
  obtain ⟨h1, h2, h3, h4⟩ := half_run
  refine ⟨exMakefile, two, half, calm_of (by decide), by decide, by decide, two_over h2 h3, ?_, exMakefile.drop 34, ?_, ?_⟩
  · intro i hi x hx e
    have : ∀ x ∈ half, two x.1 = true := by decide
    rw [← e, this x hx] at hi
    cases hi
  · intro e
    have := congrArg List.length e
    rw [List.length_drop, h4] at this
    cases this
  · rw [h1, List.take_append_drop]

/-- **C128**, what is false: a build without `--disable-opt` may be made from a Makefile without optimisation. -/
theorem C128_other_refuted : ∃ (M : Str) (opt : Nat → Bool) (sched : List (Nat × Tick)) (i : Nat), Calm sched ∧ '\r' ∉ M ∧ opt i = false ∧
    (((Tree.init M opt).run sched).procs i).pc = .over ∧ ∃ c, (none, c) ∈ (((Tree.init M opt).run sched).procs i).built ∧ c ≠ M ∧ NoFlag c := by
  refine ⟨exMakefile, fun i => i == 0, turns 0 9 ++ turns 1 2, 1, calm_of (by decide), by decide, rfl, ?_, exPatched, ?_, ?_, ?_⟩
  · decide +kernel
  · have : (((Tree.init exMakefile fun i => i == 0).run (turns 0 9 ++ turns 1 2)).procs 1).built = [(none, exPatched)] := by decide +kernel
    rw [this]; exact List.mem_cons_self ..
  · exact overlap_run.2.2.2.2
  · exact findFlags_none overlap_run.2.2.2.1

/-! ## Cases that meet the hypotheses -/

/-- the Makefile of the example after both schedules is among the contents of the theorem, and it is not trivial to be -/
example : Damaged exMakefile 32 exPatched ∧ Damaged exMakefile 32 (exMakefile.take 34) ∧ ¬ Damaged exMakefile 32 (exMakefile ++ ['x']) := by
  refine ⟨?_, ?_, fun h => absurd h.1 (by decide)⟩
  · have := C128_contents_partial exMakefile _ _ _ two overlap exOnlyFlag (by decide)
    rw [overlap_run.1] at this
    exact this
  · have := C128_contents_partial exMakefile _ _ _ two half exOnlyFlag (by decide)
    rw [half_run.1] at this
    exact this

/-- one process beside others that build at the same time: it is over, and the Makefile was patched in between -/
example : ((Tree.init exMakefile fun i => i == 0).run (turns 0 9 ++ turns 1 2 ++ turns 0 5)).disk = exMakefile ∧
    ((Tree.init exMakefile fun i => i == 0).run (turns 0 9)).disk = exPatched :=
  ⟨(C128_single exMakefile _ 0 _ (by decide) ((calm_of (by decide)).mild _) (fun i hi => by simpa using hi)).1 (by decide +kernel), by decide +kernel⟩

/-- a check of `NeverTogether` when only processes 0 and 1 have turns -/
def apartCheck (s : Tree) : List (Nat × Tick) → Bool
  | [] => !(Busy (s.procs 0).pc && Busy (s.procs 1).pc)
  | (i, t) :: rest => !(Busy (s.procs 0).pc && Busy (s.procs 1).pc) && apartCheck (s.step i t) rest

theorem apart_of_check : ∀ (sched : List (Nat × Tick)) (s : Tree), (∀ i, 2 ≤ i → Busy (s.procs i).pc = false) → (∀ x ∈ sched, x.1 < 2) →
    apartCheck s sched = true → NeverTogether s sched := by
  have one : ∀ s : Tree, (∀ i, 2 ≤ i → Busy (s.procs i).pc = false) → (!(Busy (s.procs 0).pc && Busy (s.procs 1).pc)) = true →
      OneBusy s := by
    intro s hs hb i j hi hj
    have lt : ∀ l, Busy (s.procs l).pc = true → l < 2 := fun l hl => by
      by_contra hn; rw [hs l (by omega)] at hl; cases hl
    have h1 := lt i hi
    have h2 := lt j hj
    interval_cases i <;> interval_cases j <;> first
      | rfl
      | (rw [hi, hj] at hb; cases hb)
  intro sched
  induction sched with
  | nil => intro s hs _ hb; exact one s hs hb
  | cons x rest ih =>
    intro s hs hx hb
    obtain ⟨i, t⟩ := x
    rw [apartCheck, Bool.and_eq_true] at hb
    refine ⟨one s hs hb.1, ih _ (fun j hj => ?_) (fun x h => hx x (List.mem_cons_of_mem _ h)) hb.2⟩
    have hi : i < 2 := hx _ (List.mem_cons_self ..)
    simp only [Tree.step]
    rw [if_neg (by omega)]
    exact hs j hj

/-- two processes whose turns come one after the other, but each of which begins before the other is over, are apart; the one fails at
first and tries again after the other -/
example : ((Tree.init exMakefile two).run (turns 1 1 ++ badTurns 0 14 ++ turns 1 13 ++ turns 0 13)).disk = exMakefile ∧
    (((Tree.init exMakefile two).run (turns 1 1 ++ badTurns 0 14 ++ turns 1 13 ++ turns 0 13)).procs 0).pc = .over ∧
    (((Tree.init exMakefile two).run (turns 1 1 ++ badTurns 0 14 ++ turns 1 13 ++ turns 0 13)).procs 1).pc = .over := by
  have h0 : (((Tree.init exMakefile two).run (turns 1 1 ++ badTurns 0 14 ++ turns 1 13 ++ turns 0 13)).procs 0).pc = .over := by
    decide +kernel
  have h1 : (((Tree.init exMakefile two).run (turns 1 1 ++ badTurns 0 14 ++ turns 1 13 ++ turns 0 13)).procs 1).pc = .over := by
    decide +kernel
  refine ⟨C128_apart_partial exMakefile two _ (by decide) ((calm_of (by decide)).mild _)
    (apart_of_check _ _ (fun i _ => rfl) (by decide) (by decide +kernel)) fun i => ?_, h0, h1⟩
  match i with
  | 0 => rw [h0]; rfl
  | 1 => rw [h1]; rfl
  | i + 2 =>
    have : ∀ x ∈ turns 1 1 ++ badTurns 0 14 ++ turns 1 13 ++ turns 0 13, x.1 < 2 := by decide
    rw [run_other _ _ fun x hx => by have := this x hx; omega]
    rfl

example : ((Tree.init exMakefile fun _ => false).run (turns 0 2 ++ turns 1 2)).disk = exMakefile ∧
    (((Tree.init exMakefile fun _ => false).run (turns 0 2 ++ turns 1 2)).procs 1).built = [(none, exMakefile)] :=
  ⟨(C128_plain _ _).1, by decide +kernel⟩

/-- SIGINT while the first `make` runs, when the Makefile is patched: it is restored -/
example : ((Tree.init exMakefile fun i => i == 0).run (turns 0 9 ++ [(0, { sigint := true })] ++ turns 1 2 ++ turns 0 5)).disk = exMakefile ∧
    ((Tree.init exMakefile fun i => i == 0).run (turns 0 9)).disk = exPatched := by
  refine ⟨(C128_single exMakefile _ 0 _ (by decide) ?_ (fun i hi => by simpa using hi)).1 (by decide +kernel), by decide +kernel⟩
  exact mild_of_check _ _ (by decide +kernel)

/-- the second process of the example above, interrupted all the time -/
example : (((Tree.init exMakefile two).run (overlap ++ List.replicate 400 (1, { sigint := true }))).procs 1).pc = .over :=
  C128_ends exMakefile _ _ _ two _ 1 exOnlyFlag (by decide) (by decide +kernel)

end Verif
