import Verif.Model.Kernel
import Verif.Spec.Kernel
import Verif.Lemmas.Elf
import Verif.Lemmas.SigMeta
import Verif.Lemmas.Dummy
/-! # Lemmas on syscall tables -/
set_option autoImplicit false

namespace Verif
open Spec

theorem contains_iff (s : Section) (va : Nat) : s.contains va = true ↔ PointsInto s va := by
  simp [Section.contains, PointsInto]

theorem leBytes_leVal (l : Bytes) : leBytes l.length (leVal l) = l := by
  induction l with
  | nil => rfl
  | cons b l ih =>
    simp only [List.length_cons, leBytes, leVal]
    have h1 := b.toNat_lt
    rw [show (b.toNat + 256 * leVal l) % 256 = b.toNat by omega,
      show (b.toNat + 256 * leVal l) / 256 = leVal l by omega, ih]
    simp

theorem encUint_uintOf (big : Bool) (bs : Bytes) : encUint big bs.length (uintOf big bs) = bs := by
  unfold encUint uintOf
  cases big
  · simp [leBytes_leVal]
  · have := leBytes_leVal bs.reverse
    simp only [List.length_reverse] at this
    simp [this]

/-- what `WordAt` means in terms of reading -/
theorem wordAt_iff (big : Bool) (n : Nat) (data : Bytes) (off v : Nat) (hn : 0 < n) :
    WordAt big n data off v ↔ (readAt data off n).length = n ∧ uintOf big (readAt data off n) = v := by
  constructor
  · rintro ⟨hv, pre, post, hp, rfl⟩
    rw [readAt_append pre _ post off n hp (encUint_length _ _ _)]
    refine ⟨encUint_length _ _ _, ?_⟩
    rw [uintOf_encUint, Nat.mod_eq_of_lt hv]
  · rintro ⟨h1, h2⟩
    refine ⟨?_, data.take off, data.drop (off + n), ?_, ?_⟩
    · rw [← h2]
      have := uintOf_lt big (readAt data off n)
      rwa [h1] at this
    · simp only [readAt, List.length_take, List.length_drop] at h1
      simp only [List.length_take]
      omega
    · have h3 := encUint_uintOf big (readAt data off n)
      rw [h1, h2] at h3
      rw [h3]
      unfold readAt
      rw [List.append_assoc, ← List.drop_drop, List.take_append_drop, List.take_append_drop]

/-- a position holds a word iff the file is long enough -/
theorem wordAt_exists (big : Bool) (n : Nat) (data : Bytes) (off : Nat) (hn : 0 < n) :
    (∃ v, WordAt big n data off v) ↔ off + n ≤ data.length := by
  simp only [wordAt_iff _ _ _ _ _ hn, readAt, List.length_take, List.length_drop]
  constructor
  · rintro ⟨v, h, -⟩; omega
  · intro h; exact ⟨_, by omega, rfl⟩

theorem wordAt_unique (big : Bool) (n : Nat) (data : Bytes) (off v w : Nat) (hn : 0 < n)
    (hv : WordAt big n data off v) (hw : WordAt big n data off w) : v = w := by
  rw [wordAt_iff _ _ _ _ _ hn] at hv hw
  rw [← hv.2, hw.2]

theorem unpackUint_ok_iff (big : Bool) (n : Nat) (data : Bytes) (off v : Nat) (hn : 0 < n) :
    unpackUint big n (readAt data off n) = .ok v ↔ WordAt big n data off v := by
  rw [wordAt_iff _ _ _ _ _ hn]
  unfold unpackUint
  split
  · simp [*]
  · simp [*]

theorem unpackUint_error (big : Bool) (n : Nat) (data : Bytes) (off : Nat) (e : Exc) (hn : 0 < n) :
    unpackUint big n (readAt data off n) = .error e ↔ e = .structError ∧ ¬ ∃ v, WordAt big n data off v := by
  simp only [wordAt_iff _ _ _ _ _ hn]
  unfold unpackUint
  split
  · simp [*]
  · next h => simp only [h, Except.error.injEq, false_and, exists_false, not_false_eq_true, and_true]; exact eq_comm

theorem ptrSize_pos (e : Elf) : 0 < e.ptrSize := by unfold Elf.ptrSize; split <;> decide

/-! ## Sized tables -/

theorem chunks_get {n k : Nat} {bs : Bytes} (h : bs.length = n * k) (i : Nat) (hi : i < k) :
    ((chunks n k bs)[i]?).isSome = true ∧ ∀ c, (chunks n k bs)[i]? = some c → c = readAt bs (i * n) n := by
  induction k generalizing bs i with
  | zero => omega
  | succ k ih =>
    cases i with
    | zero => simp [chunks, readAt]
    | succ i =>
      have h2 : (bs.drop n).length = n * k := by simp [h, Nat.mul_succ]
      have := ih h2 i (by omega)
      simp only [chunks, List.getElem?_cons_succ]
      refine ⟨this.1, ?_⟩
      intro c hc
      rw [this.2 c hc]
      unfold readAt
      rw [List.drop_drop, show n + i * n = (i + 1) * n by rw [Nat.succ_mul]; omega]

theorem chunks_length (n k : Nat) (bs : Bytes) : (chunks n k bs).length = k := by
  induction k generalizing bs with
  | zero => rfl
  | succ k ih => simp [chunks, ih]

theorem iterUnpack_spec (big : Bool) (n : Nat) (data : Bytes) (off size : Nat) (hn : 0 < n)
    (hin : off + size ≤ data.length) (hdiv : size % n = 0) :
    ∃ vs, iterUnpack big n (readAt data off size) = .ok vs ∧ vs.length = size / n ∧
      ∀ i v, vs[i]? = some v ↔ i < size / n ∧ WordAt big n data (off + i * n) v := by
  have hl : (readAt data off size).length = size := by simp [readAt]; omega
  have hs : size = n * (size / n) := by
    have := Nat.div_add_mod size n
    omega
  unfold iterUnpack
  rw [hl, if_pos hdiv]
  refine ⟨_, rfl, by simp [chunks_length], ?_⟩
  intro i v
  rw [List.getElem?_map]
  by_cases hi : i < size / n
  · obtain ⟨h1, h2⟩ := chunks_get (n := n) (k := size / n) (bs := readAt data off size) (by rw [hl]; exact hs) i hi
    obtain ⟨c, hc⟩ := Option.isSome_iff_exists.1 h1
    rw [hc, h2 c hc, wordAt_iff _ _ _ _ _ hn]
    have hin2 : i * n + n ≤ size := by
      have : (i + 1) * n ≤ (size / n) * n := Nat.mul_le_mul_right _ hi
      rw [Nat.succ_mul, Nat.mul_comm (size / n) n, ← hs] at this
      exact this
    have : readAt (readAt data off size) (i * n) n = readAt data (off + i * n) n := by
      unfold readAt
      rw [List.drop_take, List.drop_drop, List.take_take, Nat.min_eq_left (by omega)]
    rw [this]
    simp only [Option.map_some, Option.some.injEq, hi, true_and]
    refine ⟨fun h => ⟨?_, h⟩, fun h => h.2⟩
    simp [readAt]; omega
  · rw [List.getElem?_eq_none (by rw [chunks_length]; omega)]
    simp [hi]

/-! ## Unsized tables -/

/-- entry `i` of the table at address `va`, file offset `off`, is accepted -/
def Accept (big : Bool) (n : Nat) (data : Bytes) (sec : Section) (boundary : Option Nat) (off va i v : Nat) : Prop :=
  WordAt big n data (off + i * n) v ∧ PointsInto sec v ∧ ∀ b, boundary = some b → va + i * n < b

theorem unsizedLoop_ok (big : Bool) (n : Nat) (data : Bytes) (sec : Section) (boundary : Option Nat) (hn : 0 < n)
    (fuel off va : Nat) (hf : data.length < off + fuel) (vs : List Nat) :
    unsizedLoop big n sec boundary fuel va (data.drop off) = .ok vs ↔
      (∀ i (h : i < vs.length), Accept big n data sec boundary off va i vs[i]) ∧
      (∃ v, WordAt big n data (off + vs.length * n) v) ∧ ∀ v, ¬ Accept big n data sec boundary off va vs.length v := by
  induction fuel generalizing off va vs with
  | zero =>
    simp only [unsizedLoop]
    constructor
    · intro h; cases h
    · rintro ⟨-, h, -⟩
      rw [wordAt_exists _ _ _ _ hn] at h
      omega
  | succ fuel ih =>
    have hread : (data.drop off).take n = readAt data off n := rfl
    simp only [unsizedLoop, hread, bind, Except.bind]
    cases hu : unpackUint big n (readAt data off n) with
    | error e =>
      simp only
      have hne := ((unpackUint_error big n data off e hn).1 hu).2
      constructor
      · intro h; cases h
      · rintro ⟨h1, h2, -⟩
        exfalso
        apply hne
        rw [wordAt_exists _ _ _ _ hn] at h2 ⊢
        omega
    | ok v =>
      simp only
      have hw := (unpackUint_ok_iff big n data off v hn).1 hu
      have hw0 : WordAt big n data (off + 0 * n) v := by simpa using hw
      have huniq : ∀ w, WordAt big n data (off + 0 * n) w → w = v := fun w h => wordAt_unique _ _ _ _ _ _ hn h hw0
      by_cases hin : sec.contains v = true
      · by_cases hb : ∀ b, boundary = some b → va < b
        · have hb' : boundary.any (fun b => decide (va ≥ b)) = false := by
            cases boundary with
            | none => rfl
            | some b => have := hb b rfl; simp; omega
          have hacc : Accept big n data sec boundary off va 0 v :=
            ⟨hw0, (contains_iff _ _).1 hin, by simpa using hb⟩
          have hshift : ∀ i w, Accept big n data sec boundary (off + n) (va + n) i w ↔
              Accept big n data sec boundary off va (i + 1) w := by
            intro i w
            simp only [Accept]
            rw [show off + n + i * n = off + (i + 1) * n by rw [Nat.succ_mul]; omega,
              show va + n + i * n = va + (i + 1) * n by rw [Nat.succ_mul]; omega]
          rw [hin, hb']
          simp only [Bool.not_true, Bool.false_eq_true, if_false, List.drop_drop]
          cases vs with
          | nil =>
            constructor
            · intro h; split at h <;> cases h
            · rintro ⟨-, -, h⟩; exact absurd hacc (h v)
          | cons w ws =>
            have := ih (off + n) (va + n) (by omega) ws
            have hlen : off + n + ws.length * n = off + (w :: ws).length * n := by
              simp only [List.length_cons, Nat.succ_mul]; omega
            constructor
            · intro h
              split at h
              · cases h
              · next r hr =>
                simp only [Except.ok.injEq, List.cons.injEq] at h
                obtain ⟨rfl, rfl⟩ := h
                obtain ⟨h1, h2, h3⟩ := this.1 hr
                refine ⟨?_, by rw [← hlen]; exact h2, fun u hu => h3 u ((hshift _ _).2 hu)⟩
                intro i hi
                cases i with
                | zero => exact hacc
                | succ i => exact (hshift _ _).1 (h1 i (by simpa using hi))
            · rintro ⟨h1, h2, h3⟩
              have hr := this.2 ⟨fun i hi => (hshift _ _).2 (h1 (i + 1) (by simpa using hi)), by rw [hlen]; exact h2,
                fun u hu => h3 u ((hshift _ _).1 hu)⟩
              rw [hr]
              simp only [Except.ok.injEq, List.cons.injEq, and_true]
              exact (huniq w (h1 0 (by simp)).1).symm
        · have hb' : boundary.any (fun b => decide (va ≥ b)) = true := by
            simp only [not_forall] at hb
            obtain ⟨b, rfl, hb⟩ := hb
            simp; omega
          have hno : ∀ w, ¬ Accept big n data sec boundary off va 0 w := by
            rintro w ⟨-, -, h⟩
            exact hb (by simpa using h)
          rw [hin, hb']
          simp only [Bool.not_true, Bool.false_eq_true, if_false, if_true]
          constructor
          · intro h; cases h
            exact ⟨by simp, ⟨v, hw0⟩, hno⟩
          · rintro ⟨h1, -, -⟩
            cases vs with
            | nil => rfl
            | cons w ws => exact absurd (h1 0 (by simp)) (hno w)
      · have hno : ∀ w, ¬ Accept big n data sec boundary off va 0 w := by
          rintro w ⟨h1, h2, -⟩
          rw [huniq w h1] at h2
          exact hin ((contains_iff _ _).2 h2)
        rw [show sec.contains v = false by simpa using hin]
        simp only [Bool.not_false, if_true]
        constructor
        · intro h; cases h
          exact ⟨by simp, ⟨v, hw0⟩, hno⟩
        · rintro ⟨h1, -, -⟩
          cases vs with
          | nil => rfl
          | cons w ws => exact absurd (h1 0 (by simp)) (hno w)

theorem unsizedLoop_error (big : Bool) (n : Nat) (sec : Section) (boundary : Option Nat) (fuel va : Nat) (bs : Bytes)
    (e : Exc) (h : unsizedLoop big n sec boundary fuel va bs = .error e) : e = .structError := by
  induction fuel generalizing va bs with
  | zero => simp only [unsizedLoop] at h; cases h; rfl
  | succ fuel ih =>
    simp only [unsizedLoop, bind, Except.bind] at h
    split at h
    · next hu =>
      simp only [unpackUint] at hu
      split at hu <;> cases hu
      cases h; rfl
    · split at h
      · cases h
      · split at h
        · cases h
        · split at h
          · next hr => cases h; exact ih _ _ hr
          · cases h

end Verif
