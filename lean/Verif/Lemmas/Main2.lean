import Verif.Lemmas.Main
/-! # Lemmas: what the program does, step by step -/
set_option autoImplicit false

namespace Verif
open Spec

/-- `s'` is `s` after more commands, with the same directories, output and tables -/
def After (P : Run → Prop) (s s' : MState) : Prop :=
  (∃ R, s'.b.hist = s.b.hist ++ R ∧ ∀ r ∈ R, P r) ∧ s'.dirs = s.dirs ∧ s'.out = s.out ∧ s'.store = s.store

theorem After.refl {P : Run → Prop} (s : MState) : After P s s := ⟨⟨[], by simp, by simp⟩, rfl, rfl, rfl⟩

theorem After.trans {P : Run → Prop} {s s' s'' : MState} (h : After P s s') (h' : After P s' s'') : After P s s'' := by
  obtain ⟨⟨R, h1, h2⟩, h3, h4, h5⟩ := h
  obtain ⟨⟨S, g1, g2⟩, g3, g4, g5⟩ := h'
  refine ⟨⟨R ++ S, by rw [g1, h1, List.append_assoc], ?_⟩, by rw [g3, h3], by rw [g4, h4], by rw [g5, h5]⟩
  intro r hr
  rcases List.mem_append.1 hr with hr | hr
  · exact h2 r hr
  · exact g2 r hr

theorem After.ofB {α : Type} {P : Run → Prop} {m : BM α} (h : BEmits P m) (s : MState) : After P s (MM.ofB m s).2 := by
  obtain ⟨R, h1, h2⟩ := h s.b
  exact ⟨⟨R, h1, h2⟩, rfl, rfl, rfl⟩

theorem After.say {P : Run → Prop} (s : MState) (v : Verbosity) (msg : Str) : After P s (s.say v msg) :=
  ⟨⟨[], by simp [say_b], by simp⟩, say_dirs _ _ _, say_out _ _ _, say_store _ _ _⟩

theorem After.sayAll {P : Run → Prop} (s : MState) (v : Verbosity) (ls : List Str) : After P s (s.sayAll v ls) := by
  unfold MState.sayAll
  split
  · exact .refl s
  · exact ⟨⟨[], by simp, by simp⟩, rfl, rfl, rfl⟩

/-- an action that prints no message -/
def Wordless {α : Type} (m : MM α) : Prop := ∀ s, (m s).2.err = s.err

theorem Wordless.bind {α β : Type} {m : MM α} {f : α → MM β} (hm : Wordless m) (hf : ∀ x, Wordless (f x)) : Wordless (m >>= f) := by
  intro s
  have h := hm s
  rw [mm_bind]
  cases he : m s with
  | mk res s' =>
    rw [he] at h
    cases res with
    | error e => exact h
    | ok x => rw [← h]; exact hf x s'

theorem wordless_newAnalysis (w : MWorld) (n : Option Str) (vmlinux : Path) (kdir : Option Path) : Wordless (newAnalysis w n vmlinux kdir) := by
  unfold newAnalysis loadElf
  refine Wordless.bind ?_ fun e => Wordless.bind (fun _ => rfl) fun a => Wordless.bind (fun _ => rfl) fun v => fun _ => rfl
  refine Wordless.bind (fun _ => rfl) fun s => ?_
  split
  · exact fun _ => rfl
  · refine Wordless.bind (fun _ => rfl) fun h => Wordless.bind (fun _ => rfl) fun out => ?_
    split
    · exact fun _ => rfl
    · exact Wordless.bind (fun _ => rfl) fun _ => fun _ => rfl

/-- an action with a property of where it goes -/
def Goes {α : Type} (P : Run → Prop) (m : MM α) : Prop := ∀ s, After P s (m s).2

theorem Goes.bind {α β : Type} {P : Run → Prop} {m : MM α} {f : α → MM β} (hm : Goes P m) (hf : ∀ x, Goes P (f x)) :
    Goes P (m >>= f) := by
  intro s
  have h := hm s
  rw [mm_bind]
  cases he : m s with
  | mk res s' =>
    rw [he] at h
    cases res with
    | error e => exact h
    | ok x => exact h.trans (hf x s')

theorem goes_same {α : Type} {P : Run → Prop} {m : MM α} (h : ∀ s, (m s).2 = s) : Goes P m := fun s => by
  rw [h s]; exact .refl s

theorem goes_ofB {α : Type} {P : Run → Prop} {m : BM α} (h : BEmits P m) : Goes P (MM.ofB m) := fun s => .ofB h s

theorem goes_eprint {P : Run → Prop} (v : Verbosity) (msg : Str) : Goes P (eprint v msg) := fun s => by
  rw [eprint_eq]; exact .say s v msg

theorem goes_eprints {P : Run → Prop} (v : Verbosity) (ls : List Str) : Goes P (eprints v ls) := fun s => by
  rw [eprints_eq]; exact .sayAll s v ls

theorem goes_loadElf (w : MWorld) (vmlinux : Path) : Goes (Runs cs!"readelf") (loadElf w vmlinux) := by
  unfold loadElf
  refine Goes.bind (goes_same fun _ => rfl) fun s => ?_
  split
  · exact goes_same fun _ => rfl
  · refine Goes.bind (goes_same fun _ => rfl) fun h => ?_
    refine Goes.bind (goes_ofB (bemits_ensure _ _ _ _ fun _ => rfl)) fun out => ?_
    split
    · exact goes_same fun _ => rfl
    · exact Goes.bind (goes_ofB (bemits_ensure _ _ _ _ fun _ => rfl)) fun out => goes_same fun _ => rfl

theorem goes_newAnalysis (w : MWorld) (n : Option Str) (vmlinux : Path) (kdir : Option Path) :
    Goes (Runs cs!"readelf") (newAnalysis w n vmlinux kdir) := by
  unfold newAnalysis
  refine Goes.bind (goes_loadElf w vmlinux) fun e => ?_
  refine Goes.bind (goes_same fun _ => rfl) fun a => ?_
  exact Goes.bind (goes_same fun _ => rfl) fun v => goes_same fun _ => rfl

theorem goes_catch {α : Type} {P : Run → Prop} (w : MWorld) (v : Verbosity) (n : Option Str) (d : Option (Kind × Bool × List Str))
    {m : MM α} (h : Goes P m) : Goes P (catchInit w v n d m) := by
  intro s
  have h := h s
  unfold catchInit
  cases he : m s with
  | mk res s' =>
    rw [he] at h
    cases res with
    | ok x => exact h
    | error e =>
      simp only []
      split
      · exact h
      · refine h.trans ?_
        rw [mm_bind, eprints_eq]
        exact .sayAll _ _ _

theorem catch_ok {α : Type} (w : MWorld) (v : Verbosity) (n : Option Str) (d : Option (Kind × Bool × List Str))
    {m : MM α} {s s' : MState} {x : α} (h : catchInit w v n d m s = (.ok x, s')) : m s = (.ok x, s') := by
  unfold catchInit at h
  cases he : m s with
  | mk res s'' =>
    rw [he] at h
    cases res with
    | ok y => exact h
    | error e =>
      simp only [] at h
      split at h
      · cases h
      · rw [mm_bind, eprints_eq] at h
        cases h

/-- a command run without a directory succeeded -/
theorem ensure_ok (w : World) (argv : List Str) (s s' : MState) (out : Str)
    (h : MM.ofB (ensureCommand w argv none none) s = (.ok out, s')) :
    ∃ r : Run, r.argv = argv ∧ w.status s.b.hist r = some 0 ∧ w.output s.b.hist r = out ∧ s'.b.hist = s.b.hist ++ [r] := by
  refine ⟨⟨argv, none, none, false, s.b.makefile⟩, rfl, ?_⟩
  simp only [MM.ofB, ensureCommand, exec, bind, BM.bind, BM.get, BM.modify, tick, notStarted, BM.raise, BM.pure] at h
  by_cases hi : w.interrupt = some (Point.run s.b.hist.length)
  · rw [if_pos hi] at h
    simp [BM.raise] at h
  · rw [if_neg hi] at h
    simp only [BM.pure] at h
    cases hst : w.status s.b.hist ⟨argv, none, none, false, s.b.makefile⟩ with
    | none => rw [hst] at h; simp [BM.raise] at h
    | some st =>
      rw [hst] at h
      simp only at h
      by_cases h0 : st ≠ 0
      · rw [if_pos h0] at h
        simp [BM.raise] at h
      · rw [if_neg h0] at h
        simp only [ne_eq, Decidable.not_not] at h0
        subst h0
        simp only [BM.pure, Prod.mk.injEq, Except.ok.injEq] at h
        exact ⟨rfl, h.1, by rw [← h.2]⟩

theorem loadElf_ok (w : MWorld) (vmlinux : Path) (s s' : MState) (e : Elf) (h : loadElf w vmlinux s = (.ok e, s')) :
    LoadedFrom w s.b.hist vmlinux e := by
  unfold loadElf at h
  rw [mm_bind, mm_get] at h
  simp only [] at h
  cases hc : w.content s.b.hist vmlinux with
  | none => rw [hc] at h; cases h
  | some data =>
    rw [hc] at h
    simp only [mm_bind, mm_lift] at h
    cases hh : parseElfHeader data with
    | error x => rw [hh] at h; cases h
    | ok hd =>
      rw [hh] at h
      simp only [] at h
      cases hs : MM.ofB (ensureCommand w.toWorld [cs!"readelf", cs!"-Ws", vmlinux.str] none none) s with
      | mk r1 s1 =>
        rw [hs] at h
        cases r1 with
        | error x => cases h
        | ok symOut =>
          simp only [] at h
          split at h
          · cases h
          · rename_i hne
            simp only [mm_bind] at h
            cases ht : MM.ofB (ensureCommand w.toWorld [cs!"readelf", cs!"-WS", vmlinux.str] none none) s1 with
            | mk r2 s2 =>
              rw [ht] at h
              cases r2 with
              | error x => cases h
              | ok secOut =>
                simp only [mm_lift, Prod.mk.injEq] at h
                obtain ⟨q1, a1, a2, a3, a4⟩ := ensure_ok _ _ _ _ _ hs
                obtain ⟨q2, b1, b2, b3, b4⟩ := ensure_ok _ _ _ _ _ ht
                rw [a4] at b2 b3
                refine ⟨data, q1, q2, hc, a1, a2, b1, b2, by rw [a3, b3]; exact h.1, ?_⟩
                have h1 := h.1
                simp only [Elf.load, hh, bind, Except.bind] at h1
                injection h1 with h1
                intro hnil
                apply hne
                rw [← h1] at hnil
                simp only [] at hnil
                rw [hnil]; rfl

theorem kernelVersion_ok {e : Elf} {kd : Bool} {m : Res Str} {v : Ver} :
    kernelVersion (some e) kd m = .ok v ↔ versionFromVmlinux e = .ok (some v) := by
  unfold kernelVersion
  simp only [bind, Except.bind]
  cases versionFromVmlinux e with
  | error x => simp
  | ok o => cases o <;> simp

theorem kernelInit_ok {n : Option Str} {e : Elf} {kd : Bool} {m : Res Str} {a : Arch} (h : kernelInit n (some e) kd m = .ok a) :
    ∃ v, kernelVersion (some e) kd m = .ok v ∧ GoodKernel n e a v := by
  unfold kernelInit at h
  simp only [Option.isNone_some, Bool.and_false, Bool.false_eq_true, if_false, Option.any_some] at h
  split at h
  · cases h
  · rename_i hsym
    have hsym : e.symbols ≠ [] := by intro he; rw [he] at hsym; exact hsym rfl
    cases n with
    | none =>
      simp only [bind, Except.bind] at h
      cases hd : archFromVmlinux e with
      | error x => rw [hd] at h; cases h
      | ok o =>
        rw [hd] at h
        cases o with
        | none => cases h
        | some p =>
          obtain ⟨k, b, abis⟩ := p
          simp only [] at h
          cases abis with
          | nil => simp at h
          | cons abi abis =>
            cases abis with
            | cons _ _ => simp at h
            | nil =>
              simp only [List.length_singleton, gt_iff_lt, Nat.lt_irrefl, if_false] at h
              cases hv : kernelVersion (some e) kd m with
              | error x => rw [hv] at h; cases h
              | ok v =>
                rw [hv] at h
                simp only [] at h
                cases ha : newArch k v abi b with
                | error x => rw [ha] at h; cases h
                | ok a' =>
                  rw [ha] at h
                  simp only [] at h
                  cases hm : a'.matches e with
                  | error x => rw [hm] at h; cases h
                  | ok t =>
                    rw [hm] at h
                    cases t with
                    | false => cases h
                    | true =>
                      simp only [if_true] at h
                      injection h with h
                      subst h
                      exact ⟨v, rfl, hsym, kernelVersion_ok.1 hv, hm, fun _ h => (by cases h), fun _ => ⟨k, b, abi, hd, ha⟩⟩
    | some name =>
      simp only [bind, Except.bind] at h
      cases hv : kernelVersion (some e) kd m with
      | error x => rw [hv] at h; cases h
      | ok v =>
        rw [hv] at h
        simp only [] at h
        cases ha : archFromName name v with
        | error x => rw [ha] at h; cases h
        | ok a' =>
          rw [ha] at h
          simp only [] at h
          cases hm : a'.matches e with
          | error x => rw [hm] at h; cases h
          | ok t =>
            rw [hm] at h
            cases t with
            | false => cases h
            | true =>
              simp only [if_true] at h
              injection h with h
              subst h
              exact ⟨v, rfl, hsym, kernelVersion_ok.1 hv, hm, fun m hm' => by injection hm' with e; rw [← e]; exact ha, fun h => by cases h⟩

theorem newAnalysis_ok (w : MWorld) (n : Option Str) (vmlinux : Path) (kdir : Option Path) (s s' : MState) (k : Analysis)
    (h : newAnalysis w n vmlinux kdir s = (.ok k, s')) :
    LoadedFrom w s.b.hist vmlinux k.elf ∧ GoodKernel n k.elf k.arch k.version := by
  unfold newAnalysis at h
  rw [mm_bind] at h
  cases hl : loadElf w vmlinux s with
  | mk r1 s1 =>
    rw [hl] at h
    cases r1 with
    | error x => cases h
    | ok e =>
      simp only [mm_bind, mm_lift] at h
      cases hi : kernelInit n (some e) kdir.isSome (.error .hang) with
      | error x => rw [hi] at h; cases h
      | ok a =>
        rw [hi] at h
        simp only [] at h
        obtain ⟨v, hv, hg⟩ := kernelInit_ok hi
        rw [hv] at h
        simp only [mm_pure, Prod.mk.injEq, Except.ok.injEq] at h
        rw [← h.1]
        exact ⟨loadElf_ok w vmlinux s s1 e hl, hg⟩

end Verif
