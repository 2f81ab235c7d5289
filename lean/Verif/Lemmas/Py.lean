import Verif.Model.Py
/-! Helper lemmas about the Python primitives. -/
set_option autoImplicit false

namespace Verif

/-! ## prefixes, suffixes -/

theorem startsWith_iff {α : Type} [BEq α] [LawfulBEq α] (s p : List α) :
    startsWith s p = true ↔ p <+: s := by
  simp [startsWith, List.isPrefixOf_iff_prefix]

theorem endsWith_iff {α : Type} [BEq α] [LawfulBEq α] (s p : List α) :
    endsWith s p = true ↔ p <:+ s := by
  simp [endsWith, List.isSuffixOf_iff_suffix]

theorem isInfix_iff {α : Type} [BEq α] [LawfulBEq α] (sub s : List α) :
    isInfix sub s = true ↔ sub <:+: s := by
  induction s with
  | nil => simp [isInfix]
  | cons c cs ih =>
    simp [isInfix, ih, List.infix_cons_iff]

theorem take_append_of_suffix {α : Type} {s p : List α} (h : p <:+ s) :
    s.take (s.length - p.length) ++ p = s := by
  obtain ⟨t, rfl⟩ := h
  simp

theorem append_drop_of_prefix {α : Type} {s p : List α} (h : p <+: s) :
    p ++ s.drop p.length = s := by
  obtain ⟨t, rfl⟩ := h
  simp

/-! ## versions -/

theorem verLe_refl (a : Ver) : verLe a a = true := by
  induction a with
  | nil => rfl
  | cons a as ih => simp [verLe, ih]

theorem verLt_eq_not_verLe (a b : Ver) : verLt a b = !verLe b a := by
  induction a generalizing b with
  | nil => cases b <;> rfl
  | cons a as ih =>
    cases b with
    | nil => rfl
    | cons b bs =>
      simp only [verLt, verLe]
      by_cases h : a = b
      · subst h; simp [ih]
      · have h' : ¬ b = a := fun e => h e.symm
        simp only [h, h', if_false]
        by_cases h2 : a < b
        · have : ¬ b < a := by omega
          simp [h2, this]
        · have : b < a := by omega
          simp [h2, this]

theorem verLe_total (a b : Ver) : verLe a b = true ∨ verLe b a = true := by
  induction a generalizing b with
  | nil => simp [verLe]
  | cons a as ih =>
    cases b with
    | nil => simp [verLe]
    | cons b bs =>
      simp only [verLe]
      by_cases h : a = b
      · subst h; simpa using ih bs
      · have h' : ¬ b = a := fun e => h e.symm
        simp only [h, h', if_false, decide_eq_true_eq]
        omega

theorem verLe_antisymm {a b : Ver} (h1 : verLe a b = true) (h2 : verLe b a = true) : a = b := by
  induction a generalizing b with
  | nil => cases b with
    | nil => rfl
    | cons => simp [verLe] at h2
  | cons a as ih =>
    cases b with
    | nil => simp [verLe] at h1
    | cons b bs =>
      simp only [verLe] at h1 h2
      by_cases h : a = b
      · subst h; simp at h1 h2; rw [ih h1 h2]
      · have h' : ¬ b = a := fun e => h e.symm
        simp [h, h'] at h1 h2
        omega

theorem verLe_trans {a b c : Ver} (h1 : verLe a b = true) (h2 : verLe b c = true) : verLe a c = true := by
  induction a generalizing b c with
  | nil => rfl
  | cons a as ih =>
    cases b with
    | nil => simp [verLe] at h1
    | cons b bs =>
      cases c with
      | nil => simp [verLe] at h2
      | cons c cs =>
        simp only [verLe] at *
        by_cases hab : a = b
        · subst hab
          by_cases hac : a = c
          · subst hac; simp at *; exact ih h1 h2
          · simp [hac] at *; exact h2
        · simp [hab] at h1
          by_cases hbc : b = c
          · subst hbc; simp [hab]; exact h1
          · simp [hbc] at h2
            have : ¬ a = c := by omega
            simp [this]; omega

theorem verLt_trans_le {a b c : Ver} (h1 : verLt a b = true) (h2 : verLe b c = true) : verLt a c = true := by
  rw [verLt_eq_not_verLe] at *
  cases h : verLe c a with
  | false => rfl
  | true =>
    have := verLe_trans h2 h
    simp [this] at h1

theorem verLe_trans_lt {a b c : Ver} (h1 : verLe a b = true) (h2 : verLt b c = true) : verLt a c = true := by
  rw [verLt_eq_not_verLe] at *
  cases h : verLe c a with
  | false => rfl
  | true =>
    have := verLe_trans h h1
    simp [this] at h2

theorem verLe_of_lt {a b : Ver} (h : verLt a b = true) : verLe a b = true := by
  rw [verLt_eq_not_verLe] at h
  rcases verLe_total a b with h1 | h1
  · exact h1
  · simp [h1] at h

/-! ## dict -/
section dict
variable {κ β : Type} [DecidableEq κ]

@[simp] theorem dget_nil (k : κ) : dget k ([] : Dict κ β) = none := rfl

theorem dget_dset (k k' : κ) (v : β) (d : Dict κ β) :
    dget k (dset k' v d) = if k = k' then some v else dget k d := by
  induction d with
  | nil =>
    simp only [dset, dget]
    by_cases h : k = k'
    · simp [h]
    · have : ¬ k' = k := fun e => h e.symm
      simp [h, this]
  | cons kv d ih =>
    obtain ⟨a, b⟩ := kv
    simp only [dset]
    by_cases h1 : a = k'
    · subst h1
      simp only [if_true, dget]
      by_cases h : k = a
      · simp [h]
      · have : ¬ a = k := fun e => h e.symm
        simp [h, this]
    · simp only [h1, if_false, dget, ih]
      by_cases h : k = k'
      · subst h; simp [h1]
      · simp [h]

@[simp] theorem dget_dset_self (k : κ) (v : β) (d : Dict κ β) : dget k (dset k v d) = some v := by
  simp [dget_dset]

theorem dget_dset_ne {k k' : κ} (v : β) (d : Dict κ β) (h : k ≠ k') : dget k (dset k' v d) = dget k d := by
  simp [dget_dset, h]

theorem dget_mem {k : κ} {v : β} {d : Dict κ β} (h : dget k d = some v) : (k, v) ∈ d := by
  induction d with
  | nil => simp at h
  | cons kv d ih =>
    obtain ⟨a, b⟩ := kv
    simp only [dget] at h
    by_cases ha : a = k
    · simp [ha] at h; subst ha; subst h; simp
    · simp [ha] at h; simp [ih h]

/-- keys of a dict are unique -/
def DNodup (d : Dict κ β) : Prop := (d.map Prod.fst).Nodup

theorem mem_keys_dset (k k' : κ) (v : β) (d : Dict κ β) :
    k ∈ (dset k' v d).map Prod.fst ↔ k = k' ∨ k ∈ d.map Prod.fst := by
  induction d with
  | nil => simp [dset]
  | cons kv d ih =>
    obtain ⟨a, b⟩ := kv
    simp only [dset]
    by_cases h : a = k'
    · subst h; simp
    · simp only [h, if_false, List.map_cons, List.mem_cons, ih]
      constructor <;> rintro (h | h | h) <;> simp [h]

theorem DNodup.dset {d : Dict κ β} (h : DNodup d) (k : κ) (v : β) : DNodup (dset k v d) := by
  induction d with
  | nil => simp [DNodup, Verif.dset]
  | cons kv d ih =>
    obtain ⟨a, b⟩ := kv
    simp only [DNodup, List.map_cons, List.nodup_cons] at h
    simp only [Verif.dset]
    by_cases hk : a = k
    · subst hk; simp [DNodup, h]
    · simp only [hk, if_false, DNodup, List.map_cons, List.nodup_cons]
      refine ⟨?_, ih h.2⟩
      rw [mem_keys_dset]
      rintro (e | e)
      · exact hk e
      · exact h.1 e

theorem dget_of_mem {d : Dict κ β} (hd : DNodup d) {k : κ} {v : β} (h : (k, v) ∈ d) : dget k d = some v := by
  induction d with
  | nil => simp at h
  | cons kv d ih =>
    obtain ⟨a, b⟩ := kv
    simp only [DNodup, List.map_cons, List.nodup_cons] at hd
    rcases List.mem_cons.1 h with h | h
    · cases h; simp [dget]
    · have : a ≠ k := by
        rintro rfl
        exact hd.1 (List.mem_map_of_mem (f := Prod.fst) h)
      simp [dget, this, ih hd.2 h]

theorem dget_eq_some_iff {d : Dict κ β} (hd : DNodup d) {k : κ} {v : β} : dget k d = some v ↔ (k, v) ∈ d :=
  ⟨dget_mem, dget_of_mem hd⟩

theorem dget_eq_none_iff {d : Dict κ β} {k : κ} : dget k d = none ↔ k ∉ d.map Prod.fst := by
  induction d with
  | nil => simp
  | cons kv d ih =>
    obtain ⟨a, b⟩ := kv
    by_cases h : a = k
    · simp [dget, h]
    · have : ¬ k = a := fun e => h e.symm
      simp [dget, h, ih, this]

theorem dget_isSome_iff {d : Dict κ β} {k : κ} : (dget k d).isSome = true ↔ k ∈ d.map Prod.fst := by
  cases h : dget k d with
  | none => simp [dget_eq_none_iff.1 h]
  | some v => simp; exact ⟨v, dget_mem h⟩

theorem DNodup.dupdate {d : Dict κ β} (h : DNodup d) (e : Dict κ β) : DNodup (dupdate d e) := by
  unfold Verif.dupdate
  induction e generalizing d with
  | nil => simpa
  | cons kv e ih => exact ih (h.dset _ _)

theorem dget_dupdate {d e : Dict κ β} (he : DNodup e) (k : κ) :
    dget k (dupdate d e) = (match dget k e with | some v => some v | none => dget k d) := by
  unfold Verif.dupdate
  induction e generalizing d with
  | nil => simp
  | cons kv e ih =>
    obtain ⟨a, b⟩ := kv
    simp only [DNodup, List.map_cons, List.nodup_cons] at he
    simp only [List.foldl_cons]
    rw [ih he.2]
    simp only [dget]
    by_cases h : a = k
    · subst h
      have : dget a e = none := dget_eq_none_iff.2 he.1
      simp [this]
    · simp only [h, if_false]
      cases dget k e with
      | some v => rfl
      | none => simp only; rw [dget_dset_ne _ _ (fun e => h e.symm)]
end dict

/-! ## decimal -/

theorem toNat_digitChar10 {d : Nat} (h : d < 10) : (digitChar10 d).toNat = 48 + d := by
  unfold digitChar10
  rcases d with _|_|_|_|_|_|_|_|_|_|d <;> first | rfl | omega

theorem isDigit_digitChar10 {d : Nat} (h : d < 10) : isDigit (digitChar10 d) = true := by
  unfold isDigit; rw [toNat_digitChar10 h]
  simp; omega

theorem natReprGo_append (fuel n : Nat) (acc : Str) : natReprGo fuel n acc = natReprGo fuel n [] ++ acc := by
  induction fuel generalizing n acc with
  | zero => rfl
  | succ f ih =>
    unfold natReprGo
    split
    · rfl
    · rw [ih (n / 10) (digitChar10 (n % 10) :: acc), ih (n / 10) [digitChar10 (n % 10)]]; simp

theorem natReprGo_fuel {f1 f2 n : Nat} (h1 : n < f1) (h2 : n < f2) (acc : Str) :
    natReprGo f1 n acc = natReprGo f2 n acc := by
  induction f1 generalizing f2 n acc with
  | zero => omega
  | succ f1 ih =>
    cases f2 with
    | zero => omega
    | succ f2 =>
      unfold natReprGo
      split
      · rfl
      · exact ih (by omega) (by omega) _

theorem natRepr_lt {n : Nat} (h : n < 10) : natRepr n = [digitChar10 n] := by
  unfold natRepr natReprGo; simp [h]

theorem natRepr_ge {n : Nat} (h : 10 ≤ n) : natRepr n = natRepr (n / 10) ++ [digitChar10 (n % 10)] := by
  conv => lhs; unfold natRepr natReprGo
  rw [if_neg (by omega), natReprGo_append]
  rw [natReprGo_fuel (f2 := n / 10 + 1) (by omega) (by omega)]
  rfl

theorem natRepr_all_digits (n : Nat) : ∀ c ∈ natRepr n, isDigit c = true := by
  induction n using Nat.strongRecOn with
  | ind n ih =>
    by_cases h : n < 10
    · rw [natRepr_lt h]; simp [isDigit_digitChar10 h]
    · rw [natRepr_ge (by omega)]
      intro c hc
      rcases List.mem_append.1 hc with hc | hc
      · exact ih (n / 10) (by omega) c hc
      · simp at hc; subst hc; exact isDigit_digitChar10 (by omega)

theorem natRepr_ne_nil (n : Nat) : natRepr n ≠ [] := by
  by_cases h : n < 10
  · rw [natRepr_lt h]; simp
  · rw [natRepr_ge (by omega)]; simp

theorem natOfDigits_append (a : Str) (c : Char) : natOfDigits (a ++ [c]) = 10 * natOfDigits a + (c.toNat - 48) := by
  simp [natOfDigits]

theorem natOfDigits_natRepr (n : Nat) : natOfDigits (natRepr n) = n := by
  induction n using Nat.strongRecOn with
  | ind n ih =>
    by_cases h : n < 10
    · rw [natRepr_lt h]; simp [natOfDigits, toNat_digitChar10 h]
    · rw [natRepr_ge (by omega), natOfDigits_append, ih (n / 10) (by omega), toNat_digitChar10 (by omega)]
      omega

theorem natRepr_injective {a b : Nat} (h : natRepr a = natRepr b) : a = b := by
  rw [← natOfDigits_natRepr a, h, natOfDigits_natRepr]

/-! ## span of a character class -/

theorem takeWhile_append_stop {α : Type} (p : α → Bool) (a b : List α) (ha : ∀ x ∈ a, p x = true)
    (hb : ∀ x xs, b = x :: xs → p x = false) : (a ++ b).takeWhile p = a := by
  induction a with
  | nil =>
    cases b with
    | nil => rfl
    | cons x xs => simp [hb x xs rfl]
  | cons x xs ih =>
    simp only [List.cons_append, List.takeWhile_cons]
    simp [ha x (by simp), ih (fun y hy => ha y (by simp [hy]))]

theorem dropWhile_append_stop {α : Type} (p : α → Bool) (a b : List α) (ha : ∀ x ∈ a, p x = true)
    (hb : ∀ x xs, b = x :: xs → p x = false) : (a ++ b).dropWhile p = b := by
  induction a with
  | nil =>
    cases b with
    | nil => rfl
    | cons x xs => simp [hb x xs rfl]
  | cons x xs ih =>
    simp only [List.cons_append, List.dropWhile_cons]
    simp [ha x (by simp), ih (fun y hy => ha y (by simp [hy]))]

end Verif
