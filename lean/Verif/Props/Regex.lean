import Verif.Spec.Regex
import Verif.Lemmas.Regex
/-! # The matcher against the specification of regular expressions (trusted base) -/
set_option autoImplicit false

namespace Verif
open Spec

theorem starGo_runs {α : Type} (p : Char → Bool) (k : St → Option α) (prev : Option Char) (s : Str) :
    starGo p k prev s = (runs p prev s).findSome? k := by
  induction s generalizing prev with
  | nil => simp [starGo, runs]
  | cons c cs ih =>
    unfold starGo runs
    split
    · rw [List.findSome?_append, ih]
      cases (runs p (some c) cs).findSome? k with
      | some r => rfl
      | none => simp
    · simp

theorem findSome?_flat {α β γ : Type} (l : List α) (f : α → List β) (k : β → Option γ) :
    (l.flatMap f).findSome? k = l.findSome? fun x => (f x).findSome? k := by
  induction l with
  | nil => rfl
  | cons a as ih =>
    rw [List.flatMap_cons, List.findSome?_append, ih, List.findSome?_cons]
    cases (f a).findSome? k <;> rfl

theorem go_ways {α : Type} (r : Re) (st : St) (caps : Caps) (k : St → Caps → Option α) :
    r.go st caps k = (ways r st caps).findSome? fun x => k x.1 x.2 := by
  induction r generalizing st caps k with
  | eps => simp [Re.go, ways]
  | chr p =>
    unfold Re.go ways
    cases st.rest with
    | nil => rfl
    | cons c cs =>
      simp only
      split <;> simp
  | star p => simp only [Re.go, ways, starGo_runs, List.findSome?_map]; rfl
  | seq a b iha ihb => simp only [Re.go, ways, iha, ihb, findSome?_flat]
  | alt a b iha ihb =>
    simp only [Re.go, ways, iha, ihb, List.findSome?_append]
    cases (ways a st caps).findSome? fun x => k x.1 x.2 <;> rfl
  | grp n r ih => simp only [Re.go, ways, ih, List.findSome?_map]; rfl
  | bol =>
    unfold Re.go ways
    cases st.prev <;> simp
  | eol =>
    unfold Re.go ways
    split <;> simp
  | wordB =>
    unfold Re.go ways
    cases optWord st.prev <;> cases optWord st.rest.head? <;> simp

theorem mem_runs (p : Char → Bool) (caps : Caps) (prev : Option Char) (s : Str) (st : St) :
    st ∈ runs p prev s ↔ Way (.star p) ⟨prev, s⟩ caps st caps := by
  induction s generalizing prev with
  | nil =>
    simp only [runs, List.mem_singleton]
    exact ⟨fun h => h ▸ .none, fun h => by cases h; rfl⟩
  | cons c cs ih =>
    unfold runs
    rw [List.mem_append, List.mem_singleton]
    constructor
    · rintro (h | h)
      · by_cases hp : p c = true
        · rw [if_pos hp] at h
          exact .more hp ((ih _).1 h)
        · rw [if_neg hp] at h; cases h
      · exact h ▸ .none
    · intro h
      cases h with
      | none => exact .inr rfl
      | more hp t => left; rw [if_pos hp]; exact (ih _).2 t

theorem Spec.Way.star_caps {p : Char → Bool} {st : St} {caps : Caps} {st' : St} {caps' : Caps}
    (h : Way (.star p) st caps st' caps') : caps' = caps := by
  cases h <;> rfl

/-- what is matched is a piece of the text -/
theorem Spec.Way.text {r : Re} {st : St} {caps : Caps} {st' : St} {caps' : Caps} (h : Way r st caps st' caps') :
    ∃ t, st.rest = t ++ st'.rest ∧ st'.prev = lastOr st.prev t := by
  induction h with
  | eps | none | bol | eol | wordB => exact ⟨[], rfl, rfl⟩
  | @chr p prev c cs caps h => exact ⟨[c], rfl, rfl⟩
  | @more p prev c cs caps st' h t ih =>
    obtain ⟨x, hx, hy⟩ := ih
    exact ⟨c :: x, congrArg (c :: ·) hx, hy⟩
  | seq ha hb iha ihb =>
    obtain ⟨x, hx, hy⟩ := iha
    obtain ⟨z, hz, hw⟩ := ihb
    exact ⟨x ++ z, by rw [hx, hz, List.append_assoc], by rw [hw, hy, lastOr_append]⟩
  | left h ih | right h ih => exact ih
  | grp h ht ih => exact ih

/-- **The list of ways holds exactly what the relation allows.** -/
theorem mem_ways (r : Re) (st : St) (caps : Caps) (st' : St) (caps' : Caps) :
    (st', caps') ∈ ways r st caps ↔ Way r st caps st' caps' := by
  induction r generalizing st caps st' caps' with
  | eps =>
    simp only [ways, List.mem_singleton, Prod.mk.injEq]
    exact ⟨fun ⟨h1, h2⟩ => h1 ▸ h2 ▸ .eps, fun h => by cases h; exact ⟨rfl, rfl⟩⟩
  | chr p =>
    obtain ⟨prev, s⟩ := st
    unfold ways
    cases s with
    | nil => exact ⟨(fun h => by cases h), (fun h => by cases h)⟩
    | cons c cs =>
      simp only
      split
      · rename_i hp
        rw [List.mem_singleton, Prod.mk.injEq]
        exact ⟨fun ⟨h1, h2⟩ => h1 ▸ h2 ▸ .chr hp, fun h => by cases h; exact ⟨rfl, rfl⟩⟩
      · rename_i hp
        exact ⟨(fun h => by cases h), (fun h => by cases h; exact absurd ‹_› hp)⟩
  | star p =>
    unfold ways
    rw [List.mem_map]
    constructor
    · rintro ⟨x, hx, he⟩
      cases he
      exact (mem_runs p caps st.prev st.rest _).1 hx
    · intro h
      cases h.star_caps
      exact ⟨st', (mem_runs p caps st.prev st.rest _).2 h, rfl⟩
  | seq a b iha ihb =>
    unfold ways
    rw [List.mem_flatMap]
    constructor
    · rintro ⟨⟨x, y⟩, h1, h2⟩
      exact .seq ((iha ..).1 h1) ((ihb ..).1 h2)
    · intro h
      cases h with
      | seq ha hb => exact ⟨_, (iha ..).2 ha, (ihb ..).2 hb⟩
  | alt a b iha ihb =>
    unfold ways
    rw [List.mem_append]
    constructor
    · rintro (h | h)
      · exact .left ((iha ..).1 h)
      · exact .right ((ihb ..).1 h)
    · intro h
      cases h with
      | left h => exact .inl ((iha ..).2 h)
      | right h => exact .inr ((ihb ..).2 h)
  | grp n r ih =>
    have key : ∀ (st1 : St) (t : Str), st.rest = t ++ st1.rest →
        st.rest.take (st.rest.length - st1.rest.length) = t := by
      intro st1 t h
      rw [h, List.length_append, Nat.add_sub_cancel, List.take_left']
      rfl
    unfold ways
    rw [List.mem_map]
    constructor
    · rintro ⟨⟨x, y⟩, h, he⟩
      have hw := (ih ..).1 h
      obtain ⟨t, ht, _⟩ := hw.text
      cases he
      simp only [key x t ht]
      exact .grp hw ht
    · intro h
      cases h with
      | grp h ht => exact ⟨_, (ih ..).2 h, by simp only [key _ _ ht]⟩
  | bol =>
    obtain ⟨prev, s⟩ := st
    unfold ways
    cases prev with
    | none =>
      rw [if_pos rfl, List.mem_singleton, Prod.mk.injEq]
      exact ⟨fun ⟨h1, h2⟩ => by (subst h1 h2; exact .bol), fun h => by cases h; exact ⟨rfl, rfl⟩⟩
    | some c => exact ⟨(fun h => by simp at h), (fun h => by cases h)⟩
  | eol =>
    unfold ways
    split
    · rename_i hp
      rw [List.mem_singleton, Prod.mk.injEq]
      exact ⟨fun ⟨h1, h2⟩ => by (subst h1 h2; exact .eol hp), fun h => by cases h; exact ⟨rfl, rfl⟩⟩
    · rename_i hp
      exact ⟨(fun h => by cases h), (fun h => by cases h; exact absurd ‹_› hp)⟩
  | wordB =>
    have key : (optWord st.prev = !optWord st.rest.head?) ↔
        ((∃ c, st.prev = some c ∧ isWord c = true) ↔ ¬ ∃ c cs, st.rest = c :: cs ∧ isWord c = true) := by
      obtain ⟨prev, s⟩ := st
      cases prev <;> cases s <;> simp [optWord]
    unfold ways
    split
    · rename_i hp
      rw [List.mem_singleton, Prod.mk.injEq]
      exact ⟨fun ⟨h1, h2⟩ => by (subst h1 h2; exact .wordB (key.1 hp)), fun h => by cases h; exact ⟨rfl, rfl⟩⟩
    · rename_i hp
      exact ⟨(fun h => by cases h), (fun h => by cases h; exact absurd (key.2 ‹_›) hp)⟩

theorem findSome?_some {α β : Type} (l : List α) (f : α → β) : (l.findSome? fun x => some (f x)) = l.head?.map f := by
  cases l <;> rfl

/-- **`re.match` gives the preferred way to match at the start.** -/
theorem match_is_first (r : Re) (s : Str) : r.match? s = ((ways r ⟨none, s⟩ []).head?).map fun x => (x.2, x.1.rest) := by
  unfold Re.match?
  rw [go_ways]
  exact findSome?_some _ fun x : St × Caps => (x.2, x.1.rest)

/-- `re.match` finds something exactly when there is a way to match -/
theorem match_iff (r : Re) (s : Str) : (r.match? s).isSome ↔ ∃ st caps, Way r ⟨none, s⟩ [] st caps := by
  rw [match_is_first, Option.isSome_map]
  constructor
  · intro h
    obtain ⟨⟨st, caps⟩, hx⟩ := Option.isSome_iff_exists.1 h
    exact ⟨st, caps, (mem_ways ..).1 (List.mem_of_head? hx)⟩
  · rintro ⟨st, caps, h⟩
    have := (mem_ways ..).2 h
    cases hw : ways r ⟨none, s⟩ [] with
    | nil => rw [hw] at this; cases this
    | cons x xs => rfl

theorem searchFrom_first (r : Re) (prev : Option Char) (s : Str) :
    r.searchFrom prev s =
      ((List.range (s.length + 1)).findSome? fun n => (ways r ⟨lastOr prev (s.take n), s.drop n⟩ []).head?).map
        fun x => (x.2, x.1) := by
  induction s generalizing prev with
  | nil =>
    unfold Re.searchFrom
    rw [go_ways]
    refine (findSome?_some _ fun x : St × Caps => (x.2, x.1)).trans ?_
    simp [List.range_succ, lastOr]
  | cons c cs ih =>
    unfold Re.searchFrom
    rw [go_ways, ih, List.length_cons, List.range_succ_eq_map (n := cs.length + 1), List.findSome?_cons, List.findSome?_map]
    have h := findSome?_some (ways r ⟨prev, c :: cs⟩ []) fun x : St × Caps => (x.2, x.1)
    simp only [h, List.take_zero, List.drop_zero, lastOr]
    cases (ways r ⟨prev, c :: cs⟩ []).head? with
    | some x => rfl
    | none => rfl

/-- **`re.search` gives the preferred way to match at the first position where there is one.** -/
theorem search_is_leftmost (r : Re) (s : Str) :
    r.search s = ((List.range (s.length + 1)).findSome? fun n => (ways r (posAt s n) []).head?).map fun x => (x.2, x.1) :=
  searchFrom_first r none s

/-- in words: something found at `n` means no way to match before `n` -/
theorem search_some (r : Re) (s : Str) (caps : Caps) (st : St) (h : r.search s = some (caps, st)) :
    ∃ n, n ≤ s.length ∧ Way r (posAt s n) [] st caps ∧ (ways r (posAt s n) []).head? = some (st, caps) ∧
      ∀ m, m < n → ¬ ∃ st' caps', Way r (posAt s m) [] st' caps' := by
  rw [search_is_leftmost, Option.map_eq_some_iff] at h
  obtain ⟨⟨st1, caps1⟩, h, he⟩ := h
  cases he
  rw [List.findSome?_eq_some_iff] at h
  obtain ⟨l1, n, l2, hl, hn, hno⟩ := h
  have hlen : l1 = List.range n ∧ n < s.length + 1 := by
    have hn1 : n = l1.length := by
      have := congrArg (fun l => l[l1.length]?) hl
      simp only [List.getElem?_append_right (Nat.le_refl _), Nat.sub_self, List.getElem?_cons_zero] at this
      obtain ⟨hlt, hx⟩ := List.getElem?_eq_some_iff.1 this
      rw [List.getElem_range] at hx
      exact hx.symm
    have hlt : n < s.length + 1 := List.mem_range.1 (hl ▸ List.mem_append_right _ List.mem_cons_self)
    refine ⟨?_, hlt⟩
    have := congrArg (List.take l1.length) hl
    rw [List.take_left', List.take_range, ← hn1, Nat.min_eq_left (Nat.le_of_lt hlt)] at this
    · exact this.symm
    · rfl
  refine ⟨n, Nat.le_of_lt_succ hlen.2, (mem_ways ..).1 (List.mem_of_head? hn), hn, ?_⟩
  rintro m hm ⟨st', caps', hw⟩
  have h0 := hno m (hlen.1 ▸ List.mem_range.2 hm)
  have := (mem_ways ..).2 hw
  rw [List.head?_eq_none_iff.1 h0] at this
  cases this

/-- nothing found means there is no way to match anywhere -/
theorem search_none (r : Re) (s : Str) :
    r.search s = none ↔ ∀ n, n ≤ s.length → ¬ ∃ st caps, Way r (posAt s n) [] st caps := by
  rw [search_is_leftmost, Option.map_eq_none_iff, List.findSome?_eq_none_iff]
  constructor
  · rintro h n hn ⟨st, caps, hw⟩
    have h0 := h n (List.mem_range.2 (Nat.lt_succ_of_le hn))
    have := (mem_ways ..).2 hw
    rw [List.head?_eq_none_iff.1 h0] at this
    cases this
  · intro h n hn
    rw [List.head?_eq_none_iff, List.eq_nil_iff_forall_not_mem]
    rintro ⟨st, caps⟩ hx
    exact h n (Nat.le_of_lt_succ (List.mem_range.1 hn)) ⟨st, caps, (mem_ways ..).1 hx⟩

/-- `(a|ab)(b?)` on `xab`: the left alternative wins, and the rest is left to the second group -/
example : (Re.seq (.grp 1 (.alt (.lit cs!"a") (.lit cs!"ab"))) (.grp 2 (.opt (.lit cs!"b")))).search cs!"xab" =
    some ([(2, cs!"b"), (1, cs!"a")], ⟨some 'b', []⟩) := by decide +kernel

end Verif
