import Verif.Spec.Formats
import Verif.Props.Table
import Verif.Props.EndToEnd
/-! # The formats tell the same (C132) -/
set_option autoImplicit false

namespace Verif
open Spec

/-- results of a run for all formats: all the same, then a failure or no analysis was asked for, or the same but for the writing -/
def SameBut (w : MWorld) (P : Prop) (x : Format → Res Nat × MState) : Prop :=
  ((∀ f f', x f = x f') ∧ (P ∨ ∀ f, (x f).1 ≠ .ok 0)) ∨ ∃ k s, k.syscalls ≠ [] ∧ ∀ f, x f = printed w k f s

theorem same_bind {α : Type} {w : MWorld} {P : Prop} (m : MM α) (g : Format → α → MM Nat) (s : MState)
    (h : ∀ a s, SameBut w P fun f => g f a s) : SameBut w P fun f => (m >>= g f) s := by
  show SameBut w P fun f => MM.bind m (g f) s
  unfold MM.bind
  cases hm : m s with
  | mk r t =>
    cases r with
    | ok a => exact h a t
    | error e => exact .inl ⟨fun _ _ => rfl, .inr fun _ e => nomatch e⟩

theorem nonzero_bind {α : Type} (m : MM α) (g : α → MM Nat) (s : MState) (h : ∀ a s, (g a s).1 ≠ .ok 0) : ((m >>= g) s).1 ≠ .ok 0 := by
  show (MM.bind m g s).1 ≠ .ok 0
  unfold MM.bind
  cases hm : m s with
  | mk r t =>
    cases r with
    | ok a => exact h a t
    | error e => exact fun e => nomatch e

theorem same_ite {w : MWorld} {P : Prop} (c : Prop) [Decidable c] (a b : Format → MM Nat) {s : MState} (h : SameBut w P fun f => a f s)
    (h' : SameBut w P fun f => b f s) : SameBut w P fun f => (if c then a f else b f) s := by
  split
  · exact h
  · exact h'

theorem write_printed (w : MWorld) (k : KernelInfo) (f : Format) (t : MState) :
    ((MM.lift (outputSyscalls w.jinja w.css w.js k f) >>= fun text => MM.modify (fun s => { s with out := some text }) >>= fun _ => MM.pure 0) :
      MM Nat) t = printed w k f t := by
  unfold printed
  generalize outputSyscalls w.jinja w.css w.js k f = r
  cases r <;> rfl

theorem same_report (P : Prop) (w : MWorld) (v : Verbosity) (args : Args) (k : Analysis) (p : Path) (s : MState) :
    SameBut w P fun f => mainReport w v (asked args f) k p s := by
  unfold mainReport asked
  simp only
  refine same_bind _ (fun f s1 => _) _ fun s1 t => same_bind _ (fun f scs => _) _ fun scs t => ?_
  split
  · exact .inl ⟨fun _ _ => rfl, .inr fun _ e => nomatch e⟩
  · rename_i hne
    show SameBut w P fun f => MM.bind (MM.lift (mapRes _ scs)) _ t
    unfold MM.bind MM.lift
    cases hm : mapRes (relativize (pathOf args.kdir) args.absolutePaths) scs with
    | error e => exact .inl ⟨fun _ _ => rfl, .inr fun _ e => nomatch e⟩
    | ok scs' =>
      simp only
      refine same_bind _ (fun f _ => _) _ fun _ t => .inr ⟨⟨k.version, cs!"vmlinux", k.arch.adjustAbi k.elf, scs'⟩, t, ?_, fun f => ?_⟩
      · intro e
        have := mapRes_length _ _ _ hm
        simp only at e
        rw [e] at this
        cases scs with
        | nil => exact hne rfl
        | cons _ _ => cases this
      · exact write_printed w _ f t

theorem same_analyze (P : Prop) (w : MWorld) (v : Verbosity) (args : Args) (n : Option Str) (s : MState) :
    SameBut w P fun f => mainAnalyze w v (asked args f) n s := by
  have hv : ∀ g, vmlinuxPath (asked args g) = vmlinuxPath args := fun _ => rfl
  have hk : ∀ g, (asked args g).kdir = args.kdir := fun _ => rfl
  have hvm : ∀ g, (asked args g).vmlinux = args.vmlinux := fun _ => rfl
  have hc : ∀ g, (asked args g).checkout = args.checkout := fun _ => rfl
  have ha : ∀ g k, autoCheckout w v (asked args g) k = autoCheckout w v args k := fun _ _ => rfl
  unfold mainAnalyze
  simp only [hv, hk, hvm, hc, ha]
  refine same_ite (args.checkout = some cs!"auto" ∧ pathOf args.vmlinux = none) (fun f => _) (fun f => _) (.inl ⟨fun _ _ => rfl, .inr fun _ => nonzero_bind _ _ _ fun _ _ e => nomatch e⟩) ?_
  cases vmlinuxPath args with
  | none => exact .inl ⟨fun _ _ => rfl, .inr fun _ e => nomatch e⟩
  | some p =>
    simp only
    refine same_bind _ (fun f s1 => _) _ fun s1 t =>
      same_ite _ (fun f => _) (fun f => _) (.inl ⟨fun _ _ => rfl, .inr fun _ => nonzero_bind _ _ _ fun _ _ => nonzero_bind _ _ _ fun _ _ e => nomatch e⟩) (same_ite _ (fun f => _) (fun f => _) (.inl ⟨fun _ _ => rfl, .inr fun _ => nonzero_bind _ _ _ fun _ _ e => nomatch e⟩) ?_)
    exact same_bind _ (fun f k => _) _ fun k t => same_bind _ (fun f _ => _) _ fun _ t =>
      same_bind _ (fun f _ => _) _ fun _ t => same_report P w v args k p t

theorem same_run (w : MWorld) (v : Verbosity) (args : Args) (n : Option Str) (s : MState) :
    SameBut w (BuildMode args) fun f => mainRun w v (asked args f) n s := by
  have hb : ∀ g v n, mainBuild w v (asked args g) n = mainBuild w v args n := fun _ _ _ => rfl
  have ha : ∀ t, SameBut w (BuildMode args) fun f =>
      (if (args.clean || args.config || args.build) = true then mainBuild w v (asked args f) n else mainAnalyze w v (asked args f) n) t := by
    intro t
    by_cases h : (args.clean || args.config || args.build) = true
    · simp only [if_pos h]
      refine .inl ⟨fun f f' => congrFun ((hb f v n).trans (hb f' v n).symm) t, .inl ?_⟩
      simp only [Bool.or_eq_true] at h
      rcases h with (h | h) | h
      exacts [.inr (.inr h), .inr (.inl h), .inl h]
    · simp only [if_neg h]
      exact same_analyze _ w v args n t
  have hc : ∀ g, (asked args g).checkout = args.checkout := fun _ => rfl
  have hk : ∀ g, (asked args g).kdir = args.kdir := fun _ => rfl
  unfold mainRun
  simp only [hc, hk]
  refine same_ite (given args.checkout && decide (args.checkout ≠ some cs!"auto")) (fun f => _) (fun f => _) ?_ ?_
  · exact same_bind _ (fun f _ => _) _ fun _ t => same_bind _ (fun f _ => _) _ fun _ t => ha t
  · exact same_bind _ (fun f _ => _) _ fun _ t => ha t

theorem out_eprint (v : Verbosity) (msg : Str) (g : MM Nat) (s : MState) (h : ∀ s, (g s).2.out = s.out) :
    ((eprint v msg >>= fun _ => g) s).2.out = s.out := by
  show (MM.bind (eprint v msg) (fun _ => g) s).2.out = s.out
  unfold MM.bind eprint
  cases v.silent
  · exact h _
  · exact h _

/-- **C132**: the option `-f` decides only about how the result is written. Whatever the format, the run ends in the same way and in the
same state without having printed anything, or it has the same result and all else is the same up to writing it. -/
theorem C132_formats (w : MWorld) (help : Str) (args : Args) (s : MState) :
    ((∀ f f', main w help (asked args f) s = main w help (asked args f') s) ∧ ∀ f, (main w help (asked args f) s).2.out = s.out) ∨
    ∃ k t, k.syscalls ≠ [] ∧ ∀ f, main w help (asked args f) s = printed w k f t := by
  have key : (∀ f, main w help (asked args f) s = mainRun w (setupLogging args.quiet args.verbose) (asked args f) (args.arch.map lower) s) ∨
      ((∀ f f', main w help (asked args f) s = main w help (asked args f') s) ∧ ∀ f, (main w help (asked args f) s).2.out = s.out) := by
    unfold main
    simp only [show ∀ g, (asked args g).arch = args.arch from fun _ => rfl, show ∀ g, (asked args g).kdir = args.kdir from fun _ => rfl,
      show ∀ g, (asked args g).vmlinux = args.vmlinux from fun _ => rfl, show ∀ g, (asked args g).checkout = args.checkout from fun _ => rfl,
      show ∀ g, (asked args g).config = args.config from fun _ => rfl, show ∀ g, (asked args g).build = args.build from fun _ => rfl,
      show ∀ g, (asked args g).quiet = args.quiet from fun _ => rfl, show ∀ g, (asked args g).verbose = args.verbose from fun _ => rfl]
    by_cases h1 : (args.arch.map lower).any (fun a => !dmem a supportedArchs) = true
    · simp only [if_pos h1]
      refine .inr ⟨fun _ _ => trivial, fun _ => ?_⟩
      split
      · exact out_eprint _ _ _ _ fun _ => rfl
      · exact out_eprint _ _ _ _ fun s => out_eprint _ _ _ _ fun _ => rfl
    · simp only [if_neg h1]
      by_cases h2 : (!given args.kdir && !given args.vmlinux) = true
      · simp only [if_pos h2]
        exact .inr ⟨fun _ _ => trivial, fun _ => out_eprint _ _ _ _ fun s => out_eprint _ _ _ _ fun _ => rfl⟩
      · simp only [if_neg h2]
        by_cases h3 : (!given args.kdir && (given args.checkout || args.config || args.build)) = true
        · simp only [if_pos h3]
          exact .inr ⟨fun _ _ => trivial, fun _ => out_eprint _ _ _ _ fun s => rfl⟩
        · simp only [if_neg h3]
          by_cases h4 : (!given (args.arch.map lower) && (args.config || args.build)) = true
          · simp only [if_pos h4]
            exact .inr ⟨fun _ _ => trivial, fun _ => out_eprint _ _ _ _ fun s => out_eprint _ _ _ _ fun _ => rfl⟩
          · simp only [if_neg h4]
            exact .inl fun _ => trivial
  rcases key with hm | h
  · rcases same_run w (setupLogging args.quiet args.verbose) args (args.arch.map lower) s with ⟨he, hP⟩ | ⟨k, t, hk, h⟩
    · refine .inl ⟨fun f f' => by rw [hm f, hm f']; exact he f f', fun f => ?_⟩
      by_contra hne
      obtain ⟨h0, hb, -⟩ := (C84_output w help (asked args f) s).1 hne
      rcases hP with hP | hP
      · exact hb hP
      · exact hP f ((congrArg Prod.fst (hm f)).symm.trans h0)
    · exact .inr ⟨k, t, hk, fun f => (hm f).trans (h f)⟩
  · exact .inl h

theorem Spec.Object.member {j : Json} {l : List (Str × Json)} (h : Object j l) {n : Str} {v : Json} (hm : (n, v) ∈ l) : Member j n v := by
  obtain ⟨l', rfl, hp, -⟩ := h
  exact ⟨l', rfl, hp.mem_iff.2 hm⟩

/-- what is told in the table is told in the object -/
theorem agree_of {sc : Syscall} {r : TableRow} {j : Json} (hr : Tells sc r) (hj : SyscallObject sc j) : Agree r j := by
  obtain ⟨h1, h2, h3, h4, h5, h6, h7, h8, h9⟩ := hr
  obtain ⟨k, hk, ho⟩ := hj
  have hfile : Member j cs!"file" (orNull (fun f => .str f.str) sc.file) := ho.member (by simp)
  have hline : Member j cs!"line" (orNull .num sc.line) := ho.member (by simp)
  have hgood : Member j cs!"good_location" (.bool sc.goodLocation) := ho.member (by simp)
  have hsig : Member j cs!"signature" (orNull (fun l => .arr (l.map .str)) sc.signature) := ho.member (by simp)
  have hkc : Member j cs!"kconfig" k := ho.member (by simp)
  have hidx : Member j cs!"index" (orNull .num sc.index) := ho.member (by simp)
  refine ⟨?_, ?_, ?_, ?_, ?_, ?_, ?_, ?_⟩
  · rw [h1]
    cases hi : sc.index with
    | none => rw [hi] at hidx; exact .inl ⟨rfl, hidx⟩
    | some i => rw [hi] at hidx; exact .inr ⟨i, rfl, hidx⟩
  · rw [h2]; exact ho.member (by simp)
  · rw [h3]; exact ho.member (by simp)
  · rw [h4]; exact ho.member (by simp)
  · rw [h5]; exact ho.member (by simp)
  · rcases h6 with ⟨hf, hl⟩ | ⟨f, place, hf, hp, hl⟩
    · rw [hf] at hfile; exact .inl ⟨hfile, hl⟩
    · rw [hf] at hfile
      refine .inr ⟨f.str, place, hfile, ?_, ?_⟩
      · rcases hp with ⟨e, hp⟩ | ⟨e, hp⟩ | ⟨l, e, h0, hp⟩
        · rw [e] at hline; exact .inl ⟨.inl hline, hp⟩
        · rw [e] at hline; exact .inl ⟨.inr hline, hp⟩
        · rw [e] at hline; exact .inr ⟨l, h0, hline, hp⟩
      · cases hg : sc.goodLocation with
        | true => rw [hg] at hgood hl; exact .inl ⟨hgood, hl⟩
        | false => rw [hg] at hgood hl; exact .inr ⟨hgood, hl⟩
  · cases hc : sc.kconfig with
    | none => rw [hk.1 hc] at hkc; exact .inl ⟨h8 hc, hkc⟩
    | some c =>
      have e := h7 c hc
      rw [e] at hc
      rw [hk.2.1 _ hc] at hkc
      exact .inr hkc
  · cases hs : sc.signature with
    | none => rw [hs] at hsig; exact .inl ⟨hsig, h9.1 hs⟩
    | some sig =>
      rw [hs] at hsig
      cases sig with
      | nil => exact .inr (.inl ⟨hsig, h9.2.1 hs⟩)
      | cons a as => exact .inr (.inr ⟨a, as, hsig, h9.2.2 _ hs (by simp)⟩)

/-- **C132**: of one result the table and the document tell the same, syscall by syscall. (What is missing: see C131.) -/
theorem C132_agree_partial (k : KernelInfo) (tag : Str) (htag : versionTag k.version = .ok tag) (hne : k.syscalls ≠ [])
    (hpath : ∀ sc ∈ k.syscalls, ∀ f, sc.file = some f → ∀ x ∈ f.parts, x ≠ []) (ht : ∀ sc ∈ k.syscalls, TidySyscall sc) :
    ∃ text json rows doc objs, outputText k.syscalls = .ok text ∧ outputJson k = .ok json ∧ readTable text = some rows ∧ IsJson json doc ∧
      Member doc cs!"syscalls" (.arr objs) ∧ List.Forall₂ Agree rows objs := by
  obtain ⟨text, rows, h1, h2, h3⟩ := C131_read_partial k.syscalls hne hpath ht
  obtain ⟨json, doc, kobj, objs, g1, g2, g3, -, g5, g6⟩ := C71_json k tag htag
  refine ⟨text, json, rows, doc, objs, h1, g1, h2, g2, g3.member (by simp), ?_⟩
  have hl := h3.length_eq
  refine List.forall₂_iff_get.2 ⟨by omega, fun i hr ho => ?_⟩
  have hi : i < k.syscalls.length := by omega
  obtain ⟨j, hj, hs⟩ := g6 i k.syscalls[i] (List.getElem?_eq_getElem hi)
  rw [List.getElem?_eq_getElem ho] at hj
  cases hj
  exact agree_of ((List.forall₂_iff_get.1 h3).2 i hi hr) hs

/-- **C132**: so if a run prints something in one format, what it prints in any format tells of the same result, and it runs the same
commands, makes the same changes and says the same. -/
theorem C132_printed (w : MWorld) (help : Str) (args : Args) (s : MState) (g : Format) (hp : (main w help (asked args g) s).2.out ≠ s.out) :
    ∃ (k : KernelInfo) (t : MState), k.syscalls ≠ [] ∧ ∀ f, (main w help (asked args f) s).1 = .ok 0 →
      ∃ text, outputSyscalls w.jinja w.css w.js k f = .ok text ∧ (main w help (asked args f) s).2 = { t with out := some text } := by
  rcases C132_formats w help args s with h | ⟨k, t, hk, h⟩
  · exact absurd (h.2 g) hp
  · refine ⟨k, t, hk, fun f h0 => ?_⟩
    rw [h f] at h0 ⊢
    unfold printed at h0 ⊢
    cases hout : outputSyscalls w.jinja w.css w.js k f with
    | ok x => exact ⟨x, rfl, rfl⟩
    | error x => rw [hout] at h0; cases h0

/-- **C132**, what is false: a run may end well in one format and fail in another. Without any known signature there is no HTML page,
even if Jinja2 is installed, though the same syscalls are printed as text and as JSON. -/
theorem C132_status_refuted :
    let w := { tinyWorld cs!"6.0.3" tinySymbols with jinja := true }
    let r := fun f => main w [] (asked { vmlinux := some cs!"vmlinux" } f) {}
    (r .text).1 = .ok 0 ∧ (r .json).1 = .ok 0 ∧ (r .html).1 = .error .value := by
  decide +kernel

/-! ## Cases that meet the hypotheses -/

/-- a kernel whose table and document agree -/
example : ∃ text json rows doc objs, outputText exKernel.syscalls = .ok text ∧ outputJson exKernel = .ok json ∧ readTable text = some rows ∧
    IsJson json doc ∧ Member doc cs!"syscalls" (.arr objs) ∧ List.Forall₂ Agree rows objs :=
  C132_agree_partial exKernel cs!"v6.1" (by decide +kernel) (by decide) (by decide +kernel) exList_tidy

/-- a run that prints something -/
example : (main (tinyWorld cs!"6.0.3" tinySymbols) [] (asked { vmlinux := some cs!"vmlinux" } .text) {}).2.out ≠ (none : Option Str) := by
  have := tiny_run.2.1
  intro e
  rw [show asked { vmlinux := some cs!"vmlinux" } .text = ({ vmlinux := some cs!"vmlinux" } : Args) from rfl] at e
  rw [e] at this
  cases this

end Verif
