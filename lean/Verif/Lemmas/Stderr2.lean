import Verif.Lemmas.Stderr
import Verif.Spec.Stderr
import Verif.Lemmas.Ends2
/-! # Runs that fail tell why -/
set_option autoImplicit false
set_option maxRecDepth 8000

namespace Verif
open Spec

/-! ## Computations that never call `sys.exit` -/

def NoExit {α : Type} (r : Res α) : Prop := ∀ n, r ≠ .error (.exit n)

section
variable {α β : Type}

theorem ne_ok (x : α) : NoExit (.ok x : Res α) := by intro n h; cases h
theorem ne_pure (x : α) : NoExit (pure x : Res α) := by intro n h; cases h
theorem ne_error (e : Exc) (h : ∀ n, e ≠ .exit n) : NoExit (.error e : Res α) := by intro n h'; cases h'; exact h n rfl
theorem ne_bind (m : Res α) (f : α → Res β) (hm : NoExit m) (hf : ∀ x, NoExit (f x)) : NoExit (m >>= f) := by
  cases m with
  | ok x => exact hf x
  | error e => intro n h; exact hm n (by change (Except.error e : Res β) = _ at h; cases h; rfl)
theorem ne_mapRes (f : α → Res β) (l : List α) (h : ∀ x ∈ l, NoExit (f x)) : NoExit (mapRes f l) := by
  induction l with
  | nil => exact ne_ok _
  | cons x l ih =>
    exact ne_bind _ _ (h x (by simp)) fun _ => ne_bind _ _ (ih fun y hy => h y (by simp [hy])) fun _ => ne_ok _
theorem ne_of_eq {r : Res α} {e : Exc} (h : NoExit r) (he : r = .error e) : NoExit (.error e : Res β) :=
  ne_error _ fun n hn => h n (he.trans (by rw [hn]))
end

syntax "ne1" : tactic
macro_rules | `(tactic| ne1) => `(tactic| split)
macro_rules | `(tactic| ne1) => `(tactic| dsimp only)
macro_rules | `(tactic| ne1) => `(tactic| with_reducible refine ne_bind _ _ ?_ fun _ => ?_)
macro_rules | `(tactic| ne1) => `(tactic| (with_reducible refine ne_error _ ?_); exact (by intro n h; cases h))
macro_rules | `(tactic| ne1) => `(tactic| with_reducible exact ne_pure _)
macro_rules | `(tactic| ne1) => `(tactic| with_reducible exact ne_ok _)
macro_rules | `(tactic| ne1) => `(tactic| with_reducible assumption)
macro "noexit" : tactic => `(tactic| repeat' ne1)

theorem ne_pyAssert (c : Bool) : NoExit (pyAssert c) := by unfold pyAssert; noexit
macro_rules | `(tactic| ne1) => `(tactic| with_reducible exact ne_pyAssert _)

theorem ne_unpackUint (big : Bool) (n : Nat) (bs : Bytes) : NoExit (unpackUint big n bs) := by unfold unpackUint; noexit
macro_rules | `(tactic| ne1) => `(tactic| with_reducible exact ne_unpackUint _ _ _)

theorem ne_utf8Go (n : Nat) (bs : Bytes) : NoExit (utf8Go n bs) := by
  induction bs generalizing n with
  | nil => cases n <;> exact ne_ok _
  | cons b bs ih =>
    cases n with
    | zero => unfold utf8Go; noexit; exact ih _
    | succ n => exact ih n
theorem ne_decodeUtf8 (bs : Bytes) : NoExit (decodeUtf8 bs) := ne_utf8Go _ _
macro_rules | `(tactic| ne1) => `(tactic| with_reducible exact ne_decodeUtf8 _)

theorem ne_relativeTo (p root : Path) : NoExit (p.relativeTo root) := by unfold Path.relativeTo; noexit
macro_rules | `(tactic| ne1) => `(tactic| with_reducible exact ne_relativeTo _ _)

theorem ne_maybeRel (p : Path) (root : Option Path) : NoExit (maybeRel p root) := by unfold maybeRel; noexit
macro_rules | `(tactic| ne1) => `(tactic| with_reducible exact ne_maybeRel _ _)

theorem ne_vaddrToOffset (secs : List Section) (va : Nat) : NoExit (vaddrToOffset secs va) := by
  induction secs with
  | nil => unfold vaddrToOffset; noexit
  | cons s secs ih => unfold vaddrToOffset; noexit

theorem ne_fileOffset (e : Elf) (va : Nat) : NoExit (e.vaddrToFileOffset va) := ne_vaddrToOffset _ _
macro_rules | `(tactic| ne1) => `(tactic| with_reducible exact ne_fileOffset _ _)

theorem ne_vaddrRead (e : Elf) (va size : Nat) : NoExit (e.vaddrRead va size) := by unfold Elf.vaddrRead; noexit
macro_rules | `(tactic| ne1) => `(tactic| with_reducible exact ne_vaddrRead _ _ _)

theorem ne_readSymbol (e : Elf) (s : Symbol) : NoExit (e.readSymbol s) := ne_vaddrRead _ _ _
macro_rules | `(tactic| ne1) => `(tactic| with_reducible exact ne_readSymbol _ _)

theorem ne_readStrLoop (acc ahead : Bytes) : NoExit (readStrLoop acc ahead) := by
  induction ahead generalizing acc with
  | nil => unfold readStrLoop; noexit
  | cons b ahead ih => unfold readStrLoop; noexit; exact ih _
macro_rules | `(tactic| ne1) => `(tactic| with_reducible exact ne_readStrLoop _ _)

theorem ne_readString (e : Elf) (va : Nat) : NoExit (e.vaddrReadString va) := by unfold Elf.vaddrReadString; noexit
macro_rules | `(tactic| ne1) => `(tactic| with_reducible exact ne_readString _ _)

theorem ne_versionFromVmlinux (e : Elf) : NoExit (versionFromVmlinux e) := by unfold versionFromVmlinux decodeBanner; noexit
macro_rules | `(tactic| ne1) => `(tactic| with_reducible exact ne_versionFromVmlinux _)

theorem ne_kernelVersion (e : Elf) (kdir : Bool) (r : Res Str) : NoExit (kernelVersion (some e) kdir r) := by
  unfold kernelVersion; noexit
macro_rules | `(tactic| ne1) => `(tactic| with_reducible exact ne_kernelVersion _ _ _)

theorem ne_kindMatch (k : Kind) (e : Elf) : NoExit (k.match e) := by cases k <;> (unfold Kind.match; noexit)
macro_rules | `(tactic| ne1) => `(tactic| with_reducible exact ne_kindMatch _ _)

theorem ne_archFromVmlinux (e : Elf) : NoExit (archFromVmlinux e) := by
  unfold archFromVmlinux
  generalize archClasses = l
  induction l with
  | nil => exact ne_ok _
  | cons k l ih => unfold archFromVmlinuxGo; noexit
macro_rules | `(tactic| ne1) => `(tactic| with_reducible exact ne_archFromVmlinux _)

theorem ne_newArch (k : Kind) (v : Ver) (abi : Str) (b : Bool) : NoExit (newArch k v abi b) := by
  cases k
  · unfold newArch newArm; noexit
  · unfold newArch newArm64; noexit
  · unfold newArch newMips; noexit
  · unfold newArch newPowerPC; noexit
  · unfold newArch newRiscV; noexit
  · unfold newArch newX86; noexit
macro_rules | `(tactic| ne1) => `(tactic| with_reducible exact ne_newArch _ _ _ _)

theorem ne_createArch (st : KStore) (k : Kind) (v : Ver) (abi : Str) (b : Bool) : NoExit (createArch st k v abi b) := by
  unfold createArch; noexit
macro_rules | `(tactic| ne1) => `(tactic| with_reducible exact ne_createArch _ _ _ _ _)

theorem ne_archFromName (n : Str) (v : Ver) : NoExit (archFromName n v) := by unfold archFromName; noexit
macro_rules | `(tactic| ne1) => `(tactic| with_reducible exact ne_archFromName _ _)

theorem ne_archFromNameSt (st : KStore) (n : Str) (v : Ver) : NoExit (archFromNameSt st n v) := by unfold archFromNameSt; noexit
macro_rules | `(tactic| ne1) => `(tactic| with_reducible exact ne_archFromNameSt _ _ _)

theorem ne_matches (a : Arch) (e : Elf) : NoExit (a.matches e) := by unfold Arch.matches; noexit
macro_rules | `(tactic| ne1) => `(tactic| with_reducible exact ne_matches _ _)

theorem ne_kernelInit (n : Option Str) (e : Elf) (kdir : Bool) (r : Res Str) : NoExit (kernelInit n (some e) kdir r) := by
  unfold kernelInit
  split
  · noexit
  split
  · noexit
  split
  · noexit
  refine ne_bind _ _ ?_ fun _ => by noexit
  cases n with
  | none => noexit
  | some n => noexit

theorem ne_versionTag (v : Ver) : NoExit (versionTag v) := by unfold versionTag; noexit
macro_rules | `(tactic| ne1) => `(tactic| with_reducible exact ne_versionTag _)

theorem ne_relativize (k : Option Path) (a : Bool) (sc : Syscall) : NoExit (relativize k a sc) := by unfold relativize; noexit

theorem ne_textLines (n : Nat) (scs : List Syscall) : NoExit (textLines n scs) := by unfold textLines; noexit

theorem ne_jsonData (k : KernelInfo) : NoExit (jsonData k) := by unfold jsonData; noexit
macro_rules | `(tactic| ne1) => `(tactic| with_reducible exact ne_jsonData _)

theorem ne_maxArgs (scs : List Syscall) : NoExit (maxArgs scs) := by unfold maxArgs; noexit
macro_rules | `(tactic| ne1) => `(tactic| with_reducible exact ne_maxArgs _)

theorem ne_output (j : Bool) (css js : Str) (k : KernelInfo) (f : Format) (h : ¬ (f = .html ∧ j = false)) :
    NoExit (outputSyscalls j css js k f) := by
  unfold outputSyscalls
  split
  · unfold outputText
    split
    · next h => exact ne_of_eq (ne_textLines _ _) h
    · exact ne_ok _
  · unfold outputJson; noexit
  · unfold outputHtml
    rw [if_neg (fun hj => h ⟨rfl, hj⟩)]
    noexit

theorem ne_splitEq (x : Str) : NoExit (splitEq x) := by unfold splitEq; noexit
macro_rules | `(tactic| ne1) => `(tactic| with_reducible exact ne_splitEq _)

theorem ne_editArgs (os : List Str) : NoExit (editArgs os) := by
  induction os with
  | nil => exact ne_ok _
  | cons o os ih =>
    unfold editArgs
    refine ne_bind _ _ ?_ fun _ => ne_bind _ _ ih fun _ => ne_ok _
    unfold optionArgs; noexit

theorem ne_editConfigL (os : List Str) : NoExit (editConfigL os).2 := by
  unfold editConfigL
  split
  · exact ne_ok _
  · split
    · next h => exact ne_of_eq (ne_editArgs _) h
    · exact ne_ok _

theorem ne_toset (os : List Str) : NoExit (tosetOf os) := by
  induction os with
  | nil => exact ne_ok _
  | cons o os ih => unfold tosetOf; noexit

theorem ne_parseConfig (ls : List Str) : NoExit (parseConfig ls) := by
  unfold parseConfig
  generalize ([] : Dict Str Str) = d
  generalize (ls.map strip).filter _ = l
  induction l generalizing d with
  | nil => exact ne_ok _
  | cons x l ih =>
    unfold parseConfigGo
    refine ne_bind _ _ ?_ fun _ => ih _
    unfold parseConfigLine; noexit

theorem ne_checkDepsL (t c : Dict Str Str) (d : List (List Str) → Str → Str) (work : List (Str × Str)) :
    ∀ b, NoExit (checkDepsL t c d b work).2 := by
  induction work with
  | nil => intro b; exact ne_ok _
  | cons p work ih =>
    intro b
    obtain ⟨o, dep⟩ := p
    have h1 : NoExit (checkDepL t c d b o dep).2 := by
      unfold checkDepL
      split
      · next h => exact ne_of_eq (ne_splitEq _) h
      · dsimp only
        split
        · split
          · exact ne_ok _
          · split <;> exact ne_ok _
        · exact ne_ok _
    unfold checkDepsL
    generalize checkDepL t c d b o dep = r at h1
    obtain ⟨evs, r⟩ := r
    cases r with
    | error e => exact h1
    | ok u => exact ih _

theorem ne_checkConfigL (lines : List Str) (d : List (List Str) → Str → Str) (os : Dict Str (List Str)) :
    NoExit (editConfigCheckDepsL lines d os).2 := by
  unfold editConfigCheckDepsL
  split
  · exact ne_ok _
  · split
    · next h => exact ne_of_eq (ne_toset _) h
    · split
      · next h => exact ne_of_eq (ne_parseConfig _) h
      · split
        · next h => exact ne_of_eq (ne_checkDepsL _ _ _ _ _) (congrArg Prod.snd h)
        · exact ne_editConfigL _

end Verif
