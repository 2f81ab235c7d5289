import Verif.Lemmas.Stderr5
/-! # Errors told by a build -/
set_option autoImplicit false

namespace Verif
open Spec

/-- from states with `pre`, `m` writes only events with `ev`, and returns with `post` -/
def Holds {α : Type} (pre : BState → Prop) (m : RB α) (ev : ErrEvent → Prop) (post : α → BState → Prop) : Prop :=
  ∀ s, pre s → (∀ e ∈ (m s).1, ev e) ∧ ∀ x s', (m s).2 = (.ok x, s') → post x s'

theorem Holds.bind {α β : Type} {pre : BState → Prop} {m : RB α} {ev : ErrEvent → Prop} {mid : α → BState → Prop}
    {f : α → RB β} {post : β → BState → Prop} (h : Holds pre m ev mid) (k : ∀ x, Holds (mid x) (f x) ev post) :
    Holds pre (m >>= f) ev post := by
  intro s hs
  obtain ⟨h1, h2⟩ := h s hs
  show (∀ e ∈ (RB.bind m f s).1, ev e) ∧ ∀ x s', (RB.bind m f s).2 = (.ok x, s') → post x s'
  unfold RB.bind
  rcases hm : (m s).2 with ⟨x | x, s1⟩
  · exact ⟨h1, fun _ _ h => by cases h⟩
  · obtain ⟨k1, k2⟩ := k x s1 (h2 x s1 hm)
    refine ⟨fun e he => ?_, k2⟩
    rcases List.mem_append.1 he with he | he
    · exact h1 e he
    · exact k1 e he

theorem Holds.quiet {α : Type} {pre : BState → Prop} {m : BM α} {ev : ErrEvent → Prop} {post : α → BState → Prop}
    (h : ∀ s, pre s → ∀ x s', m s = (.ok x, s') → post x s') : Holds pre (RB.quiet m) ev post :=
  fun s hs => ⟨fun _ he => (nomatch he), h s hs⟩

theorem Holds.pure {α : Type} {pre : BState → Prop} {ev : ErrEvent → Prop} {post : α → BState → Prop} (x : α)
    (h : ∀ s, pre s → post x s) : Holds pre (RB.pure x) ev post :=
  fun s hs => ⟨fun _ he => (nomatch he), fun _ _ e => by cases e; exact h s hs⟩

theorem Holds.tell {pre : BState → Prop} {ev : ErrEvent → Prop} (es : List ErrEvent) (h : ∀ e ∈ es, ev e) :
    Holds pre (RB.tell es) ev fun _ => pre :=
  fun _ hs => ⟨h, fun _ _ e => by cases e; exact hs⟩

theorem Holds.mono {α : Type} {pre pre' : BState → Prop} {m : RB α} {ev : ErrEvent → Prop} {post : α → BState → Prop}
    (h : Holds pre m ev post) (k : ∀ s, pre' s → pre s) : Holds pre' m ev post := fun s hs => h s (k s hs)

variable {w : World} {t : Telling} {high : Bool} {b : Builder}

theorem holds_tick {P : BState → Prop} {ev : ErrEvent → Prop} (hev : ev .sigint) (p : Point) : Holds P (tickR w p) ev fun _ => P := by
  unfold tickR
  split
  · refine (Holds.tell [.sigint] (by simpa using hev)).bind fun _ => Holds.quiet fun s _ x s' h => by cases h
  · exact Holds.pure _ fun s h => h

/-- commands leave the backup alone -/
theorem holds_exec {ev : ErrEvent → Prop} (hev : ev .sigint) (P : Option Str → Prop) (argv : List Str) (cwd : Option Path) (input : Option Str) :
    Holds (fun s => P s.backup) (execR w t argv cwd input) ev fun _ s => P s.backup := by
  unfold execR
  refine Holds.bind (mid := fun _ s => P s.backup) (Holds.quiet fun s hs x s' h => by cases h; exact hs) fun s0 => ?_
  refine Holds.bind (mid := fun _ s => P s.backup) (Holds.quiet fun s hs x s' h => by cases h; exact hs) fun _ => ?_
  exact (holds_tick hev _).bind fun _ => Holds.pure _ fun s h => h

theorem holds_lift {α : Type} {P : BState → Prop} {ev : ErrEvent → Prop} (r : Res α) : Holds P (RB.quiet (BM.lift r)) ev fun _ => P :=
  Holds.quiet fun s hs x s' h => by
    cases r with
    | error e => cases h
    | ok y => cases h; exact hs

theorem holds_run {ev : ErrEvent → Prop} (hev : ev .sigint) (hc : ∀ m, ev (.log .critical (some m))) (P : Option Str → Prop)
    (cmd : CmdArg) (cwd : Option Path) (input : Option Str) :
    Holds (fun s => P s.backup) (runCommandR w t cmd cwd input) ev fun _ s => P s.backup := by
  unfold runCommandR
  refine (holds_exec hev P _ _ _).bind fun o => (Holds.tell _ fun e he => ?_).bind fun _ => holds_lift _
  obtain ⟨m, -, rfl⟩ := List.mem_map.1 he
  exact hc m

theorem holds_ensure {ev : ErrEvent → Prop} (hev : ev .sigint) (hc : ∀ m, ev (.log .critical (some m))) (P : Option Str → Prop)
    (cmd : CmdArg) (cwd : Option Path) (input : Option Str) (console : Bool) :
    Holds (fun s => P s.backup) (ensureCommandR w t cmd cwd input console) ev fun _ s => P s.backup := by
  unfold ensureCommandR
  refine (holds_exec hev P _ _ _).bind fun o => (Holds.tell _ fun e he => ?_).bind fun _ => holds_lift _
  obtain ⟨m, -, rfl⟩ := List.mem_map.1 he
  exact hc m

theorem holds_make {ev : ErrEvent → Prop} (hev : ev .sigint) (hc : ∀ m, ev (.log .critical (some m))) (target : Str) (input : Option Str) :
    Holds (fun _ => True) (makeR w t high b target input) ev fun _ _ => True := by
  unfold makeR
  exact (holds_ensure hev hc (fun _ => True) _ _ _ _).bind fun _ => Holds.pure _ fun _ h => h

/-- there is something to restore -/
def Backed (s : BState) : Prop := ∃ c cs, s.backup = some (c :: cs)

theorem holds_patch {ev : ErrEvent → Prop} (hev : ev .sigint) (lvl : Nat) (Q : Str → Prop) :
    Holds (fun s => Q s.makefile) (trySetOptLevelR w lvl) ev fun p s => p = true ∨ Q [] = False → Backed s := by
  unfold trySetOptLevelR
  refine Holds.bind (mid := fun s0 _ => Q s0.makefile) (Holds.quiet fun s hs x s' h => by cases h; exact hs) fun s0 => ?_
  refine Holds.bind (mid := fun _ s => Q s0.makefile ∧ s.backup = some (readText s0.makefile))
    (Holds.quiet fun s hs x s' h => by cases h; exact ⟨hs, rfl⟩) fun _ => ?_
  rcases hf : findFlags true (readText s0.makefile) with _ | ⟨pre, post⟩
  · refine Holds.pure _ fun s h e => ?_
    rcases e with e | e
    · cases e
    · have hne : s0.makefile ≠ [] := fun h0 => by rw [← e, ← h0]; exact h.1
      obtain ⟨c, cs, hd⟩ := List.exists_cons_of_ne_nil (readText_ne hne)
      exact ⟨c, cs, by rw [h.2, hd]⟩
  · obtain ⟨a, mid, -, hff⟩ := findFlags_some hf
    have h0 : readText s0.makefile = a ++ mid ++ '2' :: post := hff.1.1
    obtain ⟨c, cs, hd⟩ := List.exists_cons_of_ne_nil (show readText s0.makefile ≠ [] by rw [h0]; simp)
    refine Holds.bind (mid := fun _ s => s.backup = some (readText s0.makefile)) (Holds.quiet fun s hs x s' h => by cases h; exact hs.2) fun _ => ?_
    exact (holds_tick hev _).bind fun _ => Holds.pure _ fun s h _ => ⟨c, cs, by rw [h, hd]⟩

theorem holds_restore {ev : ErrEvent → Prop} (hev : ev .sigint) (lvl : Nat) :
    Holds Backed (restoreMakefileR w lvl) ev fun _ s => s.makefile ≠ [] := by
  unfold restoreMakefileR
  refine Holds.bind (mid := fun s0 _ => Backed s0) (Holds.quiet fun s hs x s' h => by cases h; exact hs) fun s0 => ?_
  rintro s1 ⟨c, cs, h0⟩
  rw [h0]
  refine Holds.bind (pre := fun _ => True) (mid := fun _ _ => True) (Holds.quiet fun _ _ _ _ _ => trivial) (fun _ => ?_) s1 trivial
  refine (holds_tick hev _).bind fun _ => ?_
  refine Holds.bind (mid := fun _ s => s.makefile = c :: cs) (Holds.quiet fun s _ x s' h => by cases h; rfl) fun _ => ?_
  exact Holds.quiet fun s hs x s' h => by cases h; show s.makefile ≠ []; rw [hs]; simp

/-- what a build may write -/
theorem holds_build {ev : ErrEvent → Prop} (hev : ev .sigint) (hc : ∀ m, ev (.log .critical (some m)))
    (h0 : ev (.log .error (some cs!"Failed to build with -O0, trying -O1")))
    (h1 : ev (.log .error (some cs!"Failed to build with -O1, doing a normal build")))
    (h2 : ev (.log .warning (some cs!"Unable to patch Makefile to disable optimizations, doing a normal build instead"))) (opt : Bool) :
    Holds (fun _ => True) (buildR w t high b opt) ev fun _ _ => True := by
  have one : ∀ {e : ErrEvent}, ev e → ∀ x ∈ [e], ev x := fun h x hx => by rw [List.mem_singleton.1 hx]; exact h
  have weak : ∀ {P : BState → Prop}, Holds P (makeR w t high b cs!"vmlinux" none) ev fun _ _ => True :=
    (holds_make hev hc _ _).mono fun _ _ => trivial
  unfold buildR
  refine Holds.bind (mid := fun _ _ => True) (Holds.quiet fun _ _ _ _ _ => trivial) fun _ => ?_
  split
  · refine (holds_patch hev 0 fun _ => True).bind fun patched => ?_
    split
    · next hp =>
      refine Holds.mono (pre := Backed) ?_ fun s h => h (.inl hp)
      refine Holds.bind (mid := fun _ => Backed) (Holds.quiet fun s hs x s' h => by cases h; exact hs) fun _ => ?_
      refine Holds.bind (holds_run hev hc (fun o => ∃ c cs, o = some (c :: cs)) _ _ _) fun res => ?_
      refine (holds_restore hev 0).bind fun _ => ?_
      split
      · exact Holds.pure _ fun _ _ => trivial
      · refine (Holds.tell _ (one h0)).bind fun _ => ?_
        refine (holds_patch hev 1 fun m => m ≠ []).bind fun _ => ?_
        refine Holds.mono (pre := Backed) ?_ fun s h => h (.inr (by simp))
        refine Holds.bind (holds_run hev hc (fun o => ∃ c cs, o = some (c :: cs)) _ _ _) fun res => ?_
        refine (holds_restore hev 1).bind fun _ => ?_
        split
        · exact Holds.pure _ fun _ _ => trivial
        · exact (Holds.tell _ (one h1)).bind fun _ => weak
    · exact (Holds.tell _ (one h2)).bind fun _ => weak
  · exact weak

end Verif
