import Verif.Model.Regex
import Verif.Lemmas.Py
/-! Declarative semantics of regular expressions, and its agreement with the backtracking matcher. -/
set_option autoImplicit false

namespace Verif

/-- `r` can go from position `st` to position `st'`, turning captures `c` into `c'`. -/
def Re.M : Re → St → Caps → St → Caps → Prop
  | .eps, st, c, st', c' => st' = st ∧ c' = c
  | .chr p, st, c, st', c' => ∃ ch cs, st.rest = ch :: cs ∧ p ch = true ∧ st' = ⟨some ch, cs⟩ ∧ c' = c
  | .star p, st, c, st', c' =>
    ∃ a b, st.rest = a ++ b ∧ (∀ x ∈ a, p x = true) ∧ st' = ⟨lastOr st.prev a, b⟩ ∧ c' = c
  | .seq a b, st, c, st', c' => ∃ m cm, a.M st c m cm ∧ b.M m cm st' c'
  | .alt a b, st, c, st', c' => a.M st c st' c' ∨ b.M st c st' c'
  | .grp n r, st, c, st', c' =>
    ∃ c1, r.M st c st' c1 ∧ c' = (n, st.rest.take (st.rest.length - st'.rest.length)) :: c1
  | .bol, st, c, st', c' => st.prev = none ∧ st' = st ∧ c' = c
  | .eol, st, c, st', c' => (st.rest = [] ∨ st.rest = ['\n']) ∧ st' = st ∧ c' = c
  | .wordB, st, c, st', c' => optWord st.prev ≠ optWord st.rest.head? ∧ st' = st ∧ c' = c

theorem starGo_sound {α : Type} (p : Char → Bool) (k : St → Option α) (prev : Option Char) (s : Str) (x : α)
    (h : starGo p k prev s = some x) :
    ∃ a b, s = a ++ b ∧ (∀ y ∈ a, p y = true) ∧ k ⟨lastOr prev a, b⟩ = some x := by
  induction s generalizing prev with
  | nil => exact ⟨[], [], rfl, by simp, h⟩
  | cons c cs ih =>
    simp only [starGo] at h
    by_cases hp : p c = true
    · simp only [hp, if_true] at h
      cases hs : starGo p k (some c) cs with
      | some r =>
        simp only [hs] at h
        cases h
        obtain ⟨a, b, rfl, h2, h3⟩ := ih (some c) hs
        refine ⟨c :: a, b, rfl, ?_, h3⟩
        intro y hy
        rcases List.mem_cons.1 hy with rfl | hy
        · exact hp
        · exact h2 y hy
      | none =>
        simp only [hs] at h
        exact ⟨[], c :: cs, rfl, by simp, h⟩
    · simp only [hp] at h
      exact ⟨[], c :: cs, rfl, by simp, h⟩

theorem starGo_complete {α : Type} (p : Char → Bool) (k : St → Option α) (prev : Option Char) (a b : Str)
    (ha : ∀ y ∈ a, p y = true) (hk : (k ⟨lastOr prev a, b⟩).isSome = true) :
    (starGo p k prev (a ++ b)).isSome = true := by
  induction a generalizing prev with
  | nil =>
    simp only [List.nil_append]
    cases b with
    | nil => exact hk
    | cons c cs =>
      simp only [starGo]
      split
      · cases hs : starGo p k (some c) cs with
        | some r => rfl
        | none => exact hk
      · exact hk
  | cons c a ih =>
    have h1 := ih (some c) (fun y hy => ha y (by simp [hy])) hk
    simp only [List.cons_append, starGo, ha c (by simp), if_true]
    cases hs : starGo p k (some c) (a ++ b) with
    | some r => rfl
    | none => rw [hs] at h1; cases h1

theorem Re.go_seq {α : Type} (a b : Re) (st : St) (caps : Caps) (k : St → Caps → Option α) :
    (Re.seq a b).go st caps k = a.go st caps (fun st' caps' => b.go st' caps' k) := rfl

theorem Re.go_sound {α : Type} (r : Re) (st : St) (caps : Caps) (k : St → Caps → Option α) (x : α)
    (h : r.go st caps k = some x) : ∃ st' caps', r.M st caps st' caps' ∧ k st' caps' = some x := by
  induction r generalizing st caps k with
  | eps => exact ⟨st, caps, ⟨rfl, rfl⟩, h⟩
  | chr p =>
    simp only [Re.go] at h
    cases hr : st.rest with
    | nil => simp [hr] at h
    | cons c cs =>
      simp only [hr] at h
      by_cases hp : p c = true
      · simp only [hp, if_true] at h
        exact ⟨_, _, ⟨c, cs, hr, hp, rfl, rfl⟩, h⟩
      · simp [hp] at h
  | star p =>
    obtain ⟨a, b, h1, h2, h3⟩ := starGo_sound _ _ _ _ _ h
    exact ⟨_, _, ⟨a, b, h1, h2, rfl, rfl⟩, h3⟩
  | seq a b iha ihb =>
    obtain ⟨m, cm, h1, h2⟩ := iha _ _ _ h
    obtain ⟨m2, cm2, h3, h4⟩ := ihb _ _ _ h2
    exact ⟨m2, cm2, ⟨m, cm, h1, h3⟩, h4⟩
  | alt a b iha ihb =>
    simp only [Re.go] at h
    cases ha : a.go st caps k with
    | some r =>
      simp only [ha] at h
      cases h
      obtain ⟨m, cm, h1, h2⟩ := iha _ _ _ ha
      exact ⟨m, cm, Or.inl h1, h2⟩
    | none =>
      simp only [ha] at h
      obtain ⟨m, cm, h1, h2⟩ := ihb _ _ _ h
      exact ⟨m, cm, Or.inr h1, h2⟩
  | grp n r ih =>
    obtain ⟨m, cm, h1, h2⟩ := ih _ _ _ h
    exact ⟨m, _, ⟨cm, h1, rfl⟩, h2⟩
  | bol =>
    simp only [Re.go] at h
    split at h
    · rename_i hb
      exact ⟨st, caps, ⟨by simpa using hb, rfl, rfl⟩, h⟩
    · cases h
  | eol =>
    simp only [Re.go] at h
    split at h
    · rename_i hb
      exact ⟨st, caps, ⟨hb, rfl, rfl⟩, h⟩
    · cases h
  | wordB =>
    simp only [Re.go] at h
    split at h
    · rename_i hb
      exact ⟨st, caps, ⟨by simpa using hb, rfl, rfl⟩, h⟩
    · cases h

theorem Re.go_complete {α : Type} (r : Re) (st : St) (caps : Caps) (k : St → Caps → Option α) (st' : St) (caps' : Caps)
    (h : r.M st caps st' caps') (hk : (k st' caps').isSome = true) : (r.go st caps k).isSome = true := by
  induction r generalizing st caps k st' caps' with
  | eps => obtain ⟨rfl, rfl⟩ := h; exact hk
  | chr p =>
    obtain ⟨c, cs, h1, h2, rfl, rfl⟩ := h
    simp [Re.go, h1, h2, hk]
  | star p =>
    obtain ⟨a, b, h1, h2, rfl, rfl⟩ := h
    simp only [Re.go]
    rw [h1]
    exact starGo_complete _ _ _ _ _ h2 hk
  | seq a b iha ihb =>
    obtain ⟨m, cm, h1, h2⟩ := h
    exact iha _ _ _ _ _ h1 (ihb _ _ _ _ _ h2 hk)
  | alt a b iha ihb =>
    simp only [Re.go]
    cases ha : a.go st caps k with
    | some r => rfl
    | none =>
      rcases h with h | h
      · have := iha _ _ _ _ _ h hk
        rw [ha] at this; cases this
      · exact ihb _ _ _ _ _ h hk
  | grp n r ih =>
    obtain ⟨c1, h1, rfl⟩ := h
    exact ih _ _ _ _ _ h1 hk
  | bol =>
    obtain ⟨h1, rfl, rfl⟩ := h
    simp [Re.go, h1, hk]
  | eol =>
    obtain ⟨h1, rfl, rfl⟩ := h
    simp [Re.go, h1, hk]
  | wordB =>
    obtain ⟨h1, rfl, rfl⟩ := h
    simp [Re.go, h1, hk]

/-- `re.match` succeeds iff the declarative semantics has a match at the start. -/
theorem Re.match?_isSome_iff (r : Re) (s : Str) :
    (r.match? s).isSome = true ↔ ∃ st' caps', r.M ⟨none, s⟩ [] st' caps' := by
  constructor
  · intro h
    obtain ⟨x, hx⟩ := Option.isSome_iff_exists.1 h
    obtain ⟨st', caps', h1, -⟩ := Re.go_sound _ _ _ _ _ hx
    exact ⟨st', caps', h1⟩
  · rintro ⟨st', caps', h⟩
    exact Re.go_complete _ _ _ _ _ _ h rfl

theorem Re.M_lit (s : Str) (st : St) (c : Caps) (st' : St) (c' : Caps) :
    (Re.lit s).M st c st' c' ↔ st.rest = s ++ st'.rest ∧ st'.prev = lastOr st.prev s ∧ c' = c := by
  induction s generalizing st with
  | nil =>
    simp only [Re.lit, Re.M, List.nil_append, lastOr]
    constructor
    · rintro ⟨rfl, rfl⟩; exact ⟨rfl, rfl, rfl⟩
    · rintro ⟨h1, h2, h3⟩
      refine ⟨?_, h3⟩
      obtain ⟨p, r⟩ := st; obtain ⟨p', r'⟩ := st'
      simp_all
  | cons x xs ih =>
    simp only [Re.lit, Re.M]
    constructor
    · rintro ⟨m, cm, ⟨ch, cs, h1, h2, rfl, rfl⟩, h3⟩
      rw [ih] at h3
      obtain ⟨h4, h5, h6⟩ := h3
      simp at h2 h4
      subst h2
      exact ⟨by rw [h1, h4]; rfl, h5, h6⟩
    · rintro ⟨h1, h2, h3⟩
      refine ⟨⟨some x, xs ++ st'.rest⟩, c, ⟨x, xs ++ st'.rest, h1, by simp, rfl, rfl⟩, ?_⟩
      rw [ih]
      exact ⟨rfl, h2, h3⟩

theorem lastOr_append (p : Option Char) (a b : Str) : lastOr p (a ++ b) = lastOr (lastOr p a) b := by
  induction a generalizing p with
  | nil => rfl
  | cons x xs ih => exact ih _

theorem Re.M_plus (p : Char → Bool) (st : St) (c : Caps) (st' : St) (c' : Caps) :
    (Re.plus p).M st c st' c' ↔
      ∃ a, a ≠ [] ∧ (∀ x ∈ a, p x = true) ∧ st.rest = a ++ st'.rest ∧ st'.prev = lastOr st.prev a ∧ c' = c := by
  simp only [Re.plus, Re.M]
  constructor
  · rintro ⟨m, cm, ⟨ch, cs, h1, h2, rfl, rfl⟩, a, b, h3, h4, rfl, rfl⟩
    refine ⟨ch :: a, by simp, ?_, by simp [h1, ← h3], rfl, rfl⟩
    intro x hx
    rcases List.mem_cons.1 hx with rfl | hx
    · exact h2
    · exact h4 x hx
  · rintro ⟨a, h1, h2, h3, h4, rfl⟩
    cases a with
    | nil => exact absurd rfl h1
    | cons x xs =>
      refine ⟨⟨some x, xs ++ st'.rest⟩, c', ⟨x, xs ++ st'.rest, h3, h2 x (by simp), rfl, rfl⟩, xs, st'.rest, rfl,
        fun y hy => h2 y (by simp [hy]), ?_, rfl⟩
      obtain ⟨p', r'⟩ := st'
      simp at h4 ⊢
      exact h4

/-! ## priority lemmas: the greedy choice is taken when it leads to success -/

theorem starGo_greedy {α : Type} (p : Char → Bool) (k : St → Option α) (prev : Option Char) (a b : Str) (x : α)
    (ha : ∀ y ∈ a, p y = true) (hb : ∀ y ys, b = y :: ys → p y = false)
    (hk : k ⟨lastOr prev a, b⟩ = some x) : starGo p k prev (a ++ b) = some x := by
  induction a generalizing prev with
  | nil =>
    cases b with
    | nil => exact hk
    | cons c cs => simp only [List.nil_append, starGo, hb c cs rfl]; exact hk
  | cons c a ih =>
    simp only [List.cons_append, starGo, ha c (by simp), if_true]
    rw [ih (some c) (fun y hy => ha y (by simp [hy])) hk]

theorem Re.go_plus_greedy {α : Type} (p : Char → Bool) (prev : Option Char) (a b : Str) (caps : Caps)
    (k : St → Caps → Option α) (x : α) (hne : a ≠ [])
    (ha : ∀ y ∈ a, p y = true) (hb : ∀ y ys, b = y :: ys → p y = false)
    (hk : k ⟨lastOr prev a, b⟩ caps = some x) : (Re.plus p).go ⟨prev, a ++ b⟩ caps k = some x := by
  cases a with
  | nil => exact absurd rfl hne
  | cons c a =>
    simp only [Re.plus, Re.go, List.cons_append, ha c (by simp), if_true]
    exact starGo_greedy p _ _ a b x (fun y hy => ha y (by simp [hy])) hb hk

theorem Re.go_lit {α : Type} (s rest : Str) (prev : Option Char) (caps : Caps) (k : St → Caps → Option α) :
    (Re.lit s).go ⟨prev, s ++ rest⟩ caps k = k ⟨lastOr prev s, rest⟩ caps := by
  induction s generalizing prev with
  | nil => rfl
  | cons c s ih =>
    simp only [Re.lit, Re.go, List.cons_append, beq_self_eq_true, if_true]
    exact ih _

/-- longest-first star where every shorter remainder fails -/
theorem starGo_last {α : Type} (p : Char → Bool) (k : St → Option α) (prev : Option Char) (a b : Str) (x : α)
    (ha : ∀ y ∈ a ++ b, p y = true)
    (hk : k ⟨lastOr prev a, b⟩ = some x)
    (hfail : ∀ q u, u <:+ b → u.length < b.length → k ⟨q, u⟩ = none) : starGo p k prev (a ++ b) = some x := by
  have hnone : ∀ (u : Str) q, u <:+ b → u.length < b.length → starGo p k q u = none := by
    intro u
    induction u with
    | nil => intro q h1 h2; exact hfail q [] h1 h2
    | cons c u ih =>
      intro q h1 h2
      have h3 : u <:+ b := (List.suffix_cons c u).trans h1
      have h4 : u.length < b.length := by simp at h2; omega
      simp only [starGo]
      rw [ih (some c) h3 h4]
      have := hfail q (c :: u) h1 h2
      split <;> exact this
  induction a generalizing prev with
  | nil =>
    cases b with
    | nil => exact hk
    | cons c cs =>
      simp only [List.nil_append, starGo, ha c (by simp), if_true]
      rw [hnone cs (some c) (List.suffix_cons c cs) (by simp)]
      exact hk
  | cons c a ih =>
    simp only [List.cons_append, starGo, ha c (by simp), if_true]
    rw [ih (some c) (fun y hy => ha y (by simp at hy ⊢; exact Or.inr hy)) hk]

/-- a search skips characters at which the pattern fails -/
theorem Re.searchFrom_skip (r : Re) (prev : Option Char) (a b : Str) (x : Caps × St)
    (hfail : ∀ pre c post q, a = pre ++ c :: post →
      r.go ⟨q, c :: post ++ b⟩ [] (fun st caps => some (caps, st)) = none)
    (hk : r.go ⟨lastOr prev a, b⟩ [] (fun st caps => some (caps, st)) = some x) :
    r.searchFrom prev (a ++ b) = some x := by
  induction a generalizing prev with
  | nil =>
    cases b with
    | nil => exact hk
    | cons c cs =>
      simp only [lastOr] at hk
      simp only [List.nil_append, Re.searchFrom, hk]
  | cons c a ih =>
    simp only [List.cons_append, Re.searchFrom]
    have := hfail [] c a prev rfl
    rw [List.cons_append] at this
    rw [this]
    exact ih (some c) (fun pre c' post q h => hfail (c :: pre) c' post q (by rw [h]; rfl)) hk

/-- `re.search` succeeds iff the pattern matches at some position -/
theorem Re.searchFrom_isSome_iff (r : Re) (prev : Option Char) (s : Str) :
    (r.searchFrom prev s).isSome = true ↔ ∃ a b st' caps', s = a ++ b ∧ r.M ⟨lastOr prev a, b⟩ [] st' caps' := by
  induction s generalizing prev with
  | nil =>
    constructor
    · intro h
      obtain ⟨x, hx⟩ := Option.isSome_iff_exists.1 h
      obtain ⟨st', caps', h1, -⟩ := Re.go_sound _ _ _ _ _ hx
      exact ⟨[], [], st', caps', rfl, h1⟩
    · rintro ⟨a, b, st', caps', h1, h2⟩
      obtain ⟨rfl, rfl⟩ := List.append_eq_nil_iff.1 h1.symm
      exact Re.go_complete _ _ _ _ _ _ h2 rfl
  | cons c cs ih =>
    constructor
    · intro h
      simp only [Re.searchFrom] at h
      cases hg : r.go ⟨prev, c :: cs⟩ [] (fun st caps => some (caps, st)) with
      | some x =>
        obtain ⟨st', caps', h1, -⟩ := Re.go_sound _ _ _ _ _ hg
        exact ⟨[], c :: cs, st', caps', rfl, h1⟩
      | none =>
        simp only [hg] at h
        obtain ⟨a, b, st', caps', rfl, h2⟩ := (ih (some c)).1 h
        exact ⟨c :: a, b, st', caps', rfl, h2⟩
    · rintro ⟨a, b, st', caps', h1, h2⟩
      simp only [Re.searchFrom]
      cases hg : r.go ⟨prev, c :: cs⟩ [] (fun st caps => some (caps, st)) with
      | some x => rfl
      | none =>
        cases a with
        | nil =>
          simp at h1; subst h1
          have := Re.go_complete r _ _ (fun st caps => some (caps, st)) _ _ h2 rfl
          rw [lastOr] at this
          rw [hg] at this; cases this
        | cons c' a =>
          simp at h1
          obtain ⟨rfl, rfl⟩ := h1
          exact (ih (some c)).2 ⟨a, b, st', caps', rfl, h2⟩

theorem Re.searchFrom_sound (r : Re) (prev : Option Char) (s : Str) (caps : Caps) (st : St)
    (h : r.searchFrom prev s = some (caps, st)) : ∃ a b, s = a ++ b ∧ r.M ⟨lastOr prev a, b⟩ [] st caps := by
  induction s generalizing prev with
  | nil =>
    obtain ⟨st', caps', h1, h2⟩ := Re.go_sound _ _ _ _ _ h
    cases h2
    exact ⟨[], [], rfl, h1⟩
  | cons c cs ih =>
    simp only [Re.searchFrom] at h
    cases hg : r.go ⟨prev, c :: cs⟩ [] (fun st caps => some (caps, st)) with
    | some x =>
      simp only [hg] at h
      obtain ⟨st', caps', h1, h2⟩ := Re.go_sound _ _ _ _ _ hg
      rw [h] at h2
      cases h2
      exact ⟨[], c :: cs, rfl, h1⟩
    | none =>
      simp only [hg] at h
      obtain ⟨a, b, rfl, h2⟩ := ih (some c) h
      exact ⟨c :: a, b, rfl, h2⟩

end Verif
