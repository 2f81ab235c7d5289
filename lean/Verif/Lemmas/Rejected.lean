import Verif.Lemmas.Main5
import Verif.Spec.Rejected
/-! # Lemmas for C102 -/
set_option autoImplicit false

namespace Verif
open Spec

/-- a result is none of the errors of the instantiation -/
def Tame {α : Type} (r : Res α) : Prop := ∀ x, r = .error x → ¬ InitError x

theorem Tame.bind {α β : Type} {r : Res α} {f : α → Res β} (h : Tame r) (hf : ∀ y, Tame (f y)) : Tame (r >>= f) := by
  cases r with
  | error e => intro x hx; injection hx with hx; exact h x (by rw [hx])
  | ok y => exact hf y

theorem tame_ok {α : Type} (y : α) : Tame (.ok y : Res α) := by intro x h; cases h

theorem tame_err {α : Type} {e : Exc} (h : ¬ InitError e) : Tame (.error e : Res α) := by
  intro x hx; injection hx with hx; rw [← hx]; exact h

theorem tame_assert (b : Bool) : Tame (pyAssert b) := by
  unfold pyAssert
  split
  · exact tame_ok _
  · exact tame_err (by unfold InitError; decide)

theorem tame_match (k : Kind) (e : Elf) : Tame (k.match e) := by
  cases k <;> unfold Kind.match <;> simp only []
  all_goals
    repeat' first
      | exact tame_ok _
      | exact tame_assert _
      | exact tame_err (by unfold InitError; decide)
      | refine Tame.bind ?_ fun _ => ?_
      | split

theorem tame_detect (e : Elf) (ks : List Kind) : Tame (archFromVmlinuxGo e ks) := by
  induction ks with
  | nil => exact tame_ok _
  | cons k ks ih =>
    unfold archFromVmlinuxGo
    refine (tame_match k e).bind fun m => ?_
    split
    · exact tame_ok _
    · exact ih

theorem tame_matches (a : Arch) (e : Elf) : Tame (a.matches e) := by
  unfold Arch.matches
  split
  all_goals first
    | exact tame_ok _
    | exact (tame_assert _).bind fun _ => tame_ok _

theorem tame_newArch (k : Kind) (v : Ver) (abi : Str) (b : Bool) : Tame (newArch k v abi b) := by
  cases k <;> simp only [newArch, newArm, newArm64, newMips, newPowerPC, newRiscV, newX86]
  all_goals
    repeat' first
      | exact tame_ok _
      | exact tame_assert _
      | exact tame_err (by unfold InitError; decide)
      | refine Tame.bind ?_ fun _ => ?_
      | split

theorem tame_fromName (n : Str) (v : Ver) : Tame (archFromName n v) := by
  unfold archFromName
  split
  · exact tame_err (by unfold InitError; decide)
  · exact tame_newArch _ _ _ _

theorem tame_offset (secs : List Section) (a : Nat) : Tame (vaddrToOffset secs a) := by
  induction secs with
  | nil => exact tame_err (by unfold InitError; decide)
  | cons x secs ih =>
    unfold vaddrToOffset
    split
    · exact tame_ok _
    · exact ih

theorem tame_decode (bs : Bytes) : Tame (decodeUtf8 bs) := by
  cases h : decodeUtf8 bs with
  | ok _ => exact tame_ok _
  | error x => rw [decodeUtf8_error bs x h]; exact tame_err (by unfold InitError; decide)

theorem tame_loop (bs : Bytes) : ∀ acc, Tame (readStrLoop acc bs) := by
  induction bs with
  | nil =>
    intro acc
    unfold readStrLoop
    split
    · exact tame_ok _
    · exact tame_err (by unfold InitError; decide)
  | cons b bs ih =>
    intro acc
    unfold readStrLoop
    split
    · exact tame_ok _
    · exact ih _

theorem tame_version (e : Elf) : Tame (versionFromVmlinux e) := by
  unfold versionFromVmlinux
  split
  · exact tame_ok _
  · split
    · refine Tame.bind ?_ fun _ => (tame_decode _).bind fun _ => tame_ok _
      exact (tame_offset _ _).bind fun _ => tame_ok _
    · refine Tame.bind ?_ fun _ => tame_ok _
      refine (tame_offset _ _).bind fun _ => ?_
      split
      · exact tame_err (by unfold InitError; decide)
      · exact (tame_loop _ _).bind fun _ => tame_decode _

end Verif
