import Verif.Spec.Location
import Verif.Lemmas.Regex
/-! What the regular expressions for definitions match. -/
set_option autoImplicit false

namespace Verif
open Spec

/-- `r` can match the text `s` when it comes after `prev` and before `rest` -/
theorem Re.M_cat_cons (r : Re) (rs : List Re) (hrs : rs ≠ []) (st : St) (c : Caps) (st' : St) (c' : Caps) :
    (Re.cat (r :: rs)).M st c st' c' ↔ ∃ m cm, r.M st c m cm ∧ (Re.cat rs).M m cm st' c' := by
  cases rs with
  | nil => exact absurd rfl hrs
  | cons x xs => rfl

theorem Re.M_opt (r : Re) (st : St) (c : Caps) (st' : St) (c' : Caps) :
    (Re.opt r).M st c st' c' ↔ r.M st c st' c' ∨ (st' = st ∧ c' = c) := Iff.rfl

theorem nameRe_ident (name : Str) (h : ∀ c ∈ name, isWord c = true) : nameRe name = Re.lit name := by
  induction name with
  | nil => rfl
  | cons c cs ih =>
    have hc := h c (by simp)
    have h1 : c ≠ '.' := by rintro rfl; revert hc; decide
    have h2 : c ≠ '$' := by rintro rfl; revert hc; decide
    simp only [nameRe, if_neg h1, if_neg h2, Re.lit, ih fun x hx => h x (by simp [hx])]

/-- A match of a piece of text: `r` consumes exactly `s`. -/
def Re.Eats (r : Re) (st : St) (s : Str) (st' : St) : Prop :=
  st.rest = s ++ st'.rest ∧ st'.prev = lastOr st.prev s ∧ ∃ c c', r.M st c st' c'

/-- state before/after a text -/
theorem st_ext {p : Option Char} {r : Str} (st : St) (h1 : st.prev = p) (h2 : st.rest = r) : st = ⟨p, r⟩ := by
  cases st; simp_all

theorem Re.M_lit_iff (s : Str) (p : Option Char) (r : Str) (c : Caps) (st' : St) (c' : Caps) :
    (Re.lit s).M ⟨p, r⟩ c st' c' ↔ ∃ r', r = s ++ r' ∧ st' = ⟨lastOr p s, r'⟩ ∧ c' = c := by
  rw [Re.M_lit]
  constructor
  · rintro ⟨h1, h2, h3⟩
    exact ⟨st'.rest, h1, st_ext _ h2 rfl, h3⟩
  · rintro ⟨r', h1, rfl, h3⟩
    exact ⟨h1, rfl, h3⟩

theorem Re.M_star_iff (q : Char → Bool) (p : Option Char) (r : Str) (c : Caps) (st' : St) (c' : Caps) :
    (Re.star q).M ⟨p, r⟩ c st' c' ↔ ∃ a r', r = a ++ r' ∧ (∀ x ∈ a, q x = true) ∧ st' = ⟨lastOr p a, r'⟩ ∧ c' = c := Iff.rfl

theorem Re.M_chr_iff (q : Char → Bool) (p : Option Char) (r : Str) (c : Caps) (st' : St) (c' : Caps) :
    (Re.chr q).M ⟨p, r⟩ c st' c' ↔ ∃ x r', r = x :: r' ∧ q x = true ∧ st' = ⟨some x, r'⟩ ∧ c' = c := Iff.rfl

theorem Re.M_plus_iff (q : Char → Bool) (p : Option Char) (r : Str) (c : Caps) (st' : St) (c' : Caps) :
    (Re.plus q).M ⟨p, r⟩ c st' c' ↔
      ∃ a r', r = a ++ r' ∧ a ≠ [] ∧ (∀ x ∈ a, q x = true) ∧ st' = ⟨lastOr p a, r'⟩ ∧ c' = c := by
  rw [Re.M_plus]
  constructor
  · rintro ⟨a, h1, h2, h3, h4, h5⟩
    exact ⟨a, st'.rest, h3, h1, h2, st_ext _ h4 rfl, h5⟩
  · rintro ⟨a, r', h1, h2, h3, rfl, h5⟩
    exact ⟨a, h2, h3, h1, rfl, h5⟩

theorem lastOr_snoc (p : Option Char) (s : Str) (c : Char) : lastOr p (s ++ [c]) = some c := by
  rw [lastOr_append]; rfl

theorem lastOr_ne_nil (p q : Option Char) (s : Str) (h : s ≠ []) : lastOr p s = lastOr q s := by
  cases s with
  | nil => exact absurd rfl h
  | cons c cs => rfl

theorem lastOr_all (q : Char → Bool) (p : Option Char) (s : Str) (hne : s ≠ []) (h : ∀ c ∈ s, q c = true) :
    ∃ c, lastOr p s = some c ∧ q c = true := by
  induction s generalizing p with
  | nil => exact absurd rfl hne
  | cons c cs ih =>
    by_cases hcs : cs = []
    · subst hcs; exact ⟨c, rfl, h c (by simp)⟩
    · exact ih (some c) hcs fun x hx => h x (by simp [hx])

/-- the `asmlinkage ...` part eats exactly the heads of the specification -/
theorem asmRe_iff (p : Option Char) (r : Str) (c : Caps) (st' : St) (c' : Caps) :
    asmRe.M ⟨p, r⟩ c st' c' ↔ ∃ head r', AsmHead head ∧ r = head ++ r' ∧ st' = ⟨lastOr p head, r'⟩ ∧ c' = c := by
  simp only [asmRe, Re.cat]
  constructor
  · rintro ⟨m1, d1, h1, m2, d2, h2, m3, d3, h3, m4, d4, h4, h5⟩
    obtain ⟨r1, rfl, rfl, rfl⟩ := (Re.M_lit_iff _ _ _ _ _ _).1 h1
    obtain ⟨ws1, r2, rfl, hw1, rfl, rfl⟩ := (Re.M_star_iff _ _ _ _ _ _).1 h2
    rcases h3 with ⟨m, d, h31, h32⟩ | ⟨rfl, rfl⟩
    · obtain ⟨r3, rfl, rfl, rfl⟩ := (Re.M_lit_iff _ _ _ _ _ _).1 h31
      obtain ⟨ws, r4, rfl, hne, hws, rfl, rfl⟩ := (Re.M_plus_iff _ _ _ _ _ _).1 h32
      obtain ⟨ty, r5, rfl, hty1, hty2, rfl, rfl⟩ := (Re.M_plus_iff _ _ _ _ _ _).1 h4
      obtain ⟨ws2, r6, rfl, hw2, rfl, rfl⟩ := (Re.M_star_iff _ _ _ _ _ _).1 h5
      refine ⟨_, r6, ⟨ws1, cs!"unsigned" ++ ws, ty, ws2, hw1, .inr ⟨ws, hne, hws, rfl⟩, ⟨hty1, hty2⟩, hw2, rfl⟩, ?_, ?_, rfl⟩
      · simp only [List.append_assoc]
      · simp only [lastOr_append]
    · obtain ⟨ty, r5, rfl, hty1, hty2, rfl, rfl⟩ := (Re.M_plus_iff _ _ _ _ _ _).1 h4
      obtain ⟨ws2, r6, rfl, hw2, rfl, rfl⟩ := (Re.M_star_iff _ _ _ _ _ _).1 h5
      refine ⟨_, r6, ⟨ws1, [], ty, ws2, hw1, .inl rfl, ⟨hty1, hty2⟩, hw2, rfl⟩, ?_, ?_, rfl⟩
      · simp only [List.append_assoc, List.nil_append]
      · simp only [lastOr_append, List.append_nil]
  · rintro ⟨head, r', ⟨ws1, uns, ty, ws2, hw1, huns, hty, hw2, rfl⟩, rfl, rfl, rfl⟩
    refine ⟨_, c', (Re.M_lit_iff _ _ _ _ _ _).2 ⟨ws1 ++ (uns ++ (ty ++ (ws2 ++ r'))), by simp only [List.append_assoc], rfl, rfl⟩, _, c',
      (Re.M_star_iff _ _ _ _ _ _).2 ⟨ws1, uns ++ (ty ++ (ws2 ++ r')), rfl, hw1, rfl, rfl⟩, ?_⟩
    rcases huns with rfl | ⟨ws, hne, hws, rfl⟩
    · refine ⟨_, c', .inr ⟨rfl, rfl⟩, _, c',
        (Re.M_plus_iff _ _ _ _ _ _).2 ⟨ty, ws2 ++ r', rfl, hty.1, hty.2, rfl, rfl⟩,
        (Re.M_star_iff _ _ _ _ _ _).2 ⟨ws2, r', rfl, hw2, ?_, rfl⟩⟩
      simp only [lastOr_append, List.append_nil]
    · refine ⟨_, c', .inl ⟨_, c',
          (Re.M_lit_iff _ _ _ _ _ _).2 ⟨ws ++ (ty ++ (ws2 ++ r')), by simp only [List.append_assoc], rfl, rfl⟩,
          (Re.M_plus_iff _ _ _ _ _ _).2 ⟨ws, ty ++ (ws2 ++ r'), rfl, hne, hws, rfl, rfl⟩⟩, _, c',
        (Re.M_plus_iff _ _ _ _ _ _).2 ⟨ty, ws2 ++ r', rfl, hty.1, hty.2, rfl, rfl⟩,
        (Re.M_star_iff _ _ _ _ _ _).2 ⟨ws2, r', rfl, hw2, ?_, rfl⟩⟩
      simp only [lastOr_append]

theorem asmHead_starts (head : Str) (h : AsmHead head) : ∃ t, head = 'a' :: t := by
  obtain ⟨ws1, uns, ty, ws2, -, -, -, -, rfl⟩ := h
  exact ⟨_, rfl⟩

theorem wordB_iff (p : Option Char) (r : Str) (c : Caps) (st' : St) (c' : Caps) :
    Re.wordB.M ⟨p, r⟩ c st' c' ↔ optWord p ≠ optWord r.head? ∧ st' = ⟨p, r⟩ ∧ c' = c := Iff.rfl

/-- a regular expression that eats exactly the strings of a list, whatever is around them -/
def Words (r : Re) (ws : List Str) : Prop :=
  ∀ p t c st' c', r.M ⟨p, t⟩ c st' c' ↔ ∃ w ∈ ws, ∃ t', t = w ++ t' ∧ st' = ⟨lastOr p w, t'⟩ ∧ c' = c

theorem words_lit (s : Str) : Words (Re.lit s) [s] := by
  intro p t c st' c'
  rw [Re.M_lit_iff]
  simp

theorem words_alt (r s : Re) (l m : List Str) (hr : Words r l) (hs : Words s m) : Words (.alt r s) (l ++ m) := by
  intro p t c st' c'
  show r.M _ _ _ _ ∨ s.M _ _ _ _ ↔ _
  rw [hr, hs]
  constructor
  · rintro (⟨w, hw, h⟩ | ⟨w, hw, h⟩)
    · exact ⟨w, List.mem_append.2 (.inl hw), h⟩
    · exact ⟨w, List.mem_append.2 (.inr hw), h⟩
  · rintro ⟨w, hw, h⟩
    rcases List.mem_append.1 hw with hw | hw
    · exact .inl ⟨w, hw, h⟩
    · exact .inr ⟨w, hw, h⟩

theorem words_eps : Words .eps [[]] := by
  intro p t c st' c'
  constructor
  · rintro ⟨rfl, rfl⟩; exact ⟨[], by simp, t, rfl, rfl, rfl⟩
  · rintro ⟨w, hw, t', rfl, rfl, rfl⟩
    simp at hw; subst hw
    exact ⟨rfl, rfl⟩

theorem words_opt (r : Re) (l : List Str) (hr : Words r l) : Words (.opt r) (l ++ [[]]) := words_alt _ _ _ _ hr words_eps

theorem words_seq (r s : Re) (l m : List Str) (hr : Words r l) (hs : Words s m) :
    Words (.seq r s) (l.flatMap fun x => m.map fun y => x ++ y) := by
  intro p t c st' c'
  constructor
  · rintro ⟨m1, d1, h1, h2⟩
    obtain ⟨w, hw, t1, rfl, rfl, rfl⟩ := (hr _ _ _ _ _).1 h1
    obtain ⟨v, hv, t2, rfl, rfl, rfl⟩ := (hs _ _ _ _ _).1 h2
    exact ⟨w ++ v, List.mem_flatMap.2 ⟨w, hw, List.mem_map.2 ⟨v, hv, rfl⟩⟩, t2, by simp, by simp [lastOr_append], rfl⟩
  · rintro ⟨x, hx, t', rfl, rfl, rfl⟩
    obtain ⟨w, hw, hx⟩ := List.mem_flatMap.1 hx
    obtain ⟨v, hv, rfl⟩ := List.mem_map.1 hx
    exact ⟨_, c', (hr _ _ _ _ _).2 ⟨w, hw, _, by rw [List.append_assoc], rfl, rfl⟩,
      (hs _ _ _ _ _).2 ⟨v, hv, _, rfl, by rw [lastOr_append], rfl⟩⟩

theorem words_name (name : Str) (h : ∀ c ∈ name, isWord c = true) : Words (nameRe name) [name] := by
  rw [nameRe_ident name h]; exact words_lit name

/-- the arch-specific function patterns -/
theorem oddAsmRe_match (r : Re) (ws : List Str) (hr : Words r ws) (text : Str) :
    ((oddAsmRe r).match? text).isSome = true ↔ ∃ fn ∈ ws, AsmText text fn true := by
  rw [Re.match?_isSome_iff]
  constructor
  · rintro ⟨st', caps', m0, d0, h0, m1, d1, h1, m2, d2, h2, m3, d3, h3, h4⟩
    obtain ⟨-, rfl, rfl⟩ := h0
    obtain ⟨head, r1, hh, rfl, rfl, rfl⟩ := (asmRe_iff _ _ _ _ _).1 h1
    obtain ⟨fn, hfn, r2, rfl, rfl, rfl⟩ := (hr _ _ _ _ _).1 h2
    obtain ⟨w, r3, rfl, hw, rfl, rfl⟩ := (Re.M_star_iff _ _ _ _ _ _).1 h3
    obtain ⟨r4, rfl, rfl, rfl⟩ := (Re.M_lit_iff _ _ _ _ _ _).1 h4
    exact ⟨fn, hfn, head, w, r4, hh, hw, by simp, by simp only [List.append_assoc]⟩
  · rintro ⟨fn, hfn, head, w, rest, hh, hw, -, rfl⟩
    obtain ⟨t, rfl⟩ := asmHead_starts _ hh
    refine ⟨_, [], _, [], ⟨?_, rfl, rfl⟩, _, [], (asmRe_iff _ _ _ _ _).2 ⟨_, _, hh, by simp only [List.append_assoc], rfl, rfl⟩, _, [],
      (hr _ _ _ _ _).2 ⟨fn, hfn, _, rfl, rfl, rfl⟩, _, [],
      (Re.M_star_iff _ _ _ _ _ _).2 ⟨w, _, rfl, hw, rfl, rfl⟩, (Re.M_lit_iff _ _ _ _ _ _).2 ⟨rest, rfl, rfl, rfl⟩⟩
    show optWord none ≠ optWord (some 'a')
    decide

theorem fullnameRe_match (name : Str) (hn : ∀ c ∈ name, isWord c = true) (text : Str) :
    ((fullnameRe name).match? text).isSome = true ↔ AsmText text name true := by
  rw [Re.match?_isSome_iff]
  have hr := words_name name hn
  constructor
  · rintro ⟨st', caps', m0, d0, h0, m1, d1, h1, m2, d2, h2, m3, d3, h3, h4⟩
    obtain ⟨-, rfl, rfl⟩ := h0
    obtain ⟨head, r1, hh, rfl, rfl, rfl⟩ := (asmRe_iff _ _ _ _ _).1 h1
    obtain ⟨fn, hfn, r2, rfl, rfl, rfl⟩ := (hr _ _ _ _ _).1 h2
    obtain ⟨w, r3, rfl, hw, rfl, rfl⟩ := (Re.M_star_iff _ _ _ _ _ _).1 h3
    obtain ⟨r4, rfl, rfl, rfl⟩ := (Re.M_lit_iff _ _ _ _ _ _).1 h4
    cases List.mem_singleton.1 hfn
    exact ⟨head, w, r4, hh, hw, by simp, by simp only [List.append_assoc]⟩
  · rintro ⟨head, w, rest, hh, hw, -, rfl⟩
    exact ⟨_, [], _, [], ⟨rfl, rfl, rfl⟩, _, [], (asmRe_iff _ _ _ _ _).2 ⟨_, _, hh, by simp only [List.append_assoc], rfl, rfl⟩, _, [],
      (hr _ _ _ _ _).2 ⟨name, by simp, _, rfl, rfl, rfl⟩, _, [],
      (Re.M_star_iff _ _ _ _ _ _).2 ⟨w, _, rfl, hw, rfl, rfl⟩, (Re.M_lit_iff _ _ _ _ _ _).2 ⟨rest, rfl, rfl, rfl⟩⟩

theorem oldstyleRe_match (name : Str) (hn : ∀ c ∈ name, isWord c = true) (text : Str) :
    ((oldstyleRe name).match? text).isSome = true ↔ ∃ fn ∈ tightNames name, AsmText text fn false := by
  rw [Re.match?_isSome_iff]
  have hr : Words (.cat [.lit cs!"sys", .opt (.lit cs!"32"), .lit cs!"_", nameRe name]) (tightNames name).reverse :=
    words_seq _ _ _ _ (words_lit _) (words_seq _ _ _ _ (words_opt _ _ (words_lit _))
      (words_seq _ _ _ _ (words_lit _) (words_name name hn)))
  constructor
  · rintro ⟨st', caps', m0, d0, h0, m1, d1, h1, m2, d2, h2, m3, d3, h3, m4, d4, h4, m5, d5, h5, h6⟩
    obtain ⟨-, rfl, rfl⟩ := h0
    obtain ⟨head, r1, hh, rfl, rfl, rfl⟩ := (asmRe_iff _ _ _ _ _).1 h1
    obtain ⟨fn, hfn, r2, rfl, rfl, rfl⟩ := (hr _ _ _ _ _).1 ⟨_, _, h2, _, _, h3, _, _, h4, h5⟩
    obtain ⟨r4, rfl, rfl, rfl⟩ := (Re.M_lit_iff _ _ _ _ _ _).1 h6
    exact ⟨fn, List.mem_reverse.1 hfn, head, [], r4, hh, by simp [Blank], by simp, by simp only [List.append_assoc, List.nil_append]⟩
  · rintro ⟨fn, hfn, head, w, rest, hh, hw, hw0, rfl⟩
    cases hw0 rfl
    obtain ⟨m2, d2, h2, m3, d3, h3, m4, d4, h4, h5⟩ := (hr (lastOr none head) (fn ++ (cs!"(" ++ rest)) [] _ []).2
      ⟨fn, List.mem_reverse.2 hfn, _, rfl, rfl, rfl⟩
    exact ⟨_, [], _, [], ⟨rfl, rfl, rfl⟩, _, [], (asmRe_iff _ _ _ _ _).2
      ⟨_, _, hh, by simp only [List.append_assoc, List.nil_append], rfl, rfl⟩, m2, d2, h2, m3, d3, h3, m4, d4, h4, _, [], h5,
      (Re.M_lit_iff _ _ _ _ _ _).2 ⟨rest, rfl, rfl, rfl⟩⟩

/-- the part of a macro pattern from the digit on -/
theorem macroTail_iff (name : Str) (hid : Ident name) (p : Option Char) (t : Str) (c : Caps) (st' : St) (c' : Caps) :
    (Re.cat [.chr isDigit, reWs, .lit cs!"(", nameRe name, .wordB]).M ⟨p, t⟩ c st' c' ↔
      ∃ d ws rest, isDigit d = true ∧ Blank ws ∧ NoWord rest ∧ t = [d] ++ ws ++ cs!"(" ++ name ++ rest ∧
        st' = ⟨lastOr none name, rest⟩ ∧ c' = c := by
  have hr := words_name name hid.2
  constructor
  · rintro ⟨m1, d1, h1, m2, d2, h2, m3, d3, h3, m4, d4, h4, h5⟩
    obtain ⟨x, r1, rfl, hx, rfl, rfl⟩ := (Re.M_chr_iff _ _ _ _ _ _).1 h1
    obtain ⟨w, r2, rfl, hw, rfl, rfl⟩ := (Re.M_star_iff _ _ _ _ _ _).1 h2
    obtain ⟨r3, rfl, rfl, rfl⟩ := (Re.M_lit_iff _ _ _ _ _ _).1 h3
    obtain ⟨fn, hfn, r4, rfl, rfl, rfl⟩ := (hr _ _ _ _ _).1 h4
    cases List.mem_singleton.1 hfn
    obtain ⟨hb, rfl, rfl⟩ := (wordB_iff _ _ _ _ _).1 h5
    refine ⟨x, w, r4, hx, hw, ?_, by simp, by rw [lastOr_ne_nil _ none _ hid.1], rfl⟩
    obtain ⟨y, hy, hyw⟩ := lastOr_all isWord (lastOr (lastOr (some x) w) cs!"(") name hid.1 hid.2
    intro z zs hz
    subst hz
    rw [hy] at hb
    simp only [optWord, hyw, List.head?_cons, ne_eq] at hb
    simpa using hb
  · rintro ⟨d, ws, rest, hd, hws, hnw, rfl, rfl, rfl⟩
    refine ⟨_, _, (Re.M_chr_iff _ _ _ _ _ _).2 ⟨d, _, by simp only [List.append_assoc]; rfl, hd, rfl, rfl⟩, _, _,
      (Re.M_star_iff _ _ _ _ _ _).2 ⟨ws, _, rfl, hws, rfl, rfl⟩, _, _, (Re.M_lit_iff _ _ _ _ _ _).2 ⟨_, rfl, rfl, rfl⟩, _, _,
      (hr _ _ _ _ _).2 ⟨name, by simp, rest, rfl, rfl, rfl⟩, (wordB_iff _ _ _ _ _).2 ⟨?_, ?_, rfl⟩⟩
    · obtain ⟨y, hy, hyw⟩ := lastOr_all isWord (lastOr (lastOr (some d) ws) cs!"(") name hid.1 hid.2
      rw [hy]
      simp only [optWord, hyw]
      cases rest with
      | nil => decide
      | cons z zs => simp [hnw z zs rfl]
    · rw [lastOr_ne_nil none (lastOr (lastOr (some d) ws) cs!"(") _ hid.1]

/-- a macro pattern: one of some macro names, then the tail -/
theorem macro_match (first : Re) (ms : List Str) (name : Str) (hid : Ident name) (text : Str)
    (hm : Words first ms) (hne : ∀ m ∈ ms, ∃ c t, m = c :: t ∧ isWord c = true) (guard : Re) (hg : guard = .bol ∨ guard = .wordB) :
    (∃ st' caps', (Re.seq guard (.seq first (.cat [.chr isDigit, reWs, .lit cs!"(", nameRe name, .wordB]))).M ⟨none, text⟩ [] st' caps') ↔
      ∃ m ∈ ms, MacroUse m text name := by
  constructor
  · rintro ⟨st', caps', m0, d0, h0, m1, d1, h1, h2⟩
    have h0' : m0 = ⟨none, text⟩ ∧ d0 = [] := by
      rcases hg with rfl | rfl
      · exact h0.2
      · exact h0.2
    obtain ⟨rfl, rfl⟩ := h0'
    obtain ⟨m, hmem, r1, rfl, rfl, rfl⟩ := (hm _ _ _ _ _).1 h1
    obtain ⟨d, ws, rest, hd, hws, hnw, rfl, -, -⟩ := (macroTail_iff name hid _ _ _ _ _).1 h2
    exact ⟨m, hmem, d, ws, rest, hd, hws, hnw, by simp only [List.append_assoc]⟩
  · rintro ⟨m, hmem, d, ws, rest, hd, hws, hnw, rfl⟩
    refine ⟨_, [], _, [], (?_ : guard.M _ _ ⟨none, m ++ [d] ++ ws ++ cs!"(" ++ name ++ rest⟩ []), _, [],
      (hm _ _ _ _ _).2 ⟨m, hmem, [d] ++ ws ++ cs!"(" ++ name ++ rest, by simp only [List.append_assoc], rfl, rfl⟩,
      (macroTail_iff name hid _ _ _ _ _).2 ⟨d, ws, rest, hd, hws, hnw, rfl, rfl, rfl⟩⟩
    rcases hg with rfl | rfl
    · exact ⟨rfl, rfl, rfl⟩
    · refine ⟨?_, rfl, rfl⟩
      obtain ⟨c, t, rfl, hc⟩ := hne m hmem
      simp [optWord, hc]

theorem Re.M_seq_assoc (a b c : Re) (st : St) (k : Caps) (st' : St) (k' : Caps) :
    (Re.seq (Re.seq a b) c).M st k st' k' ↔ (Re.seq a (Re.seq b c)).M st k st' k' := by
  constructor
  · rintro ⟨m, d, ⟨m1, d1, h1, h2⟩, h3⟩
    exact ⟨m1, d1, h1, m, d, h2, h3⟩
  · rintro ⟨m1, d1, h1, m, d, h2, h3⟩
    exact ⟨m, d, ⟨m1, d1, h1, h2⟩, h3⟩

/-- the macros of the first pattern -/
def newMacros (a : Arch) : List Str :=
  [cs!"SYSCALL_DEFINE", cs!"SYSCALL32_DEFINE"] ++
  (if a.compat then [cs!"COMPAT_SYSCALL_DEFINE", cs!"COMPAT_SYSCALL32_DEFINE"] else [])

theorem words_perm (r : Re) (l m : List Str) (h : ∀ x, x ∈ l ↔ x ∈ m) (hr : Words r l) : Words r m := by
  intro p t c st' c'
  rw [hr]
  simp only [h]

theorem newstyleRe_match (a : Arch) (name : Str) (hid : Ident name) (text : Str) :
    ((newstyleRe a name).match? text).isSome = true ↔ ∃ m ∈ newMacros a, MacroUse m text name := by
  rw [Re.match?_isSome_iff]
  have hw : Words (.seq (if a.compat then .opt (.lit cs!"COMPAT_") else .eps)
      (.seq (.lit cs!"SYSCALL") (.seq (.opt (.lit cs!"32")) (.lit cs!"_DEFINE")))) (newMacros a) := by
    have h1 : Words (.seq (.lit cs!"SYSCALL") (.seq (.opt (.lit cs!"32")) (.lit cs!"_DEFINE")))
        [cs!"SYSCALL32_DEFINE", cs!"SYSCALL_DEFINE"] :=
      words_seq _ _ _ _ (words_lit _) (words_seq _ _ _ _ (words_opt _ _ (words_lit _)) (words_lit _))
    cases hc : a.compat with
    | true =>
      refine words_perm _ _ _ ?_ (words_seq _ _ _ _ (words_opt _ _ (words_lit cs!"COMPAT_")) h1)
      intro x
      simp [newMacros, hc]
      tauto
    | false =>
      refine words_perm _ _ _ ?_ (words_seq _ _ _ _ words_eps h1)
      intro x
      simp [newMacros, hc]
      tauto
  have hne : ∀ m ∈ newMacros a, ∃ c t, m = c :: t ∧ isWord c = true := by
    intro m hm
    simp only [newMacros, List.mem_append] at hm
    rcases hm with hm | hm
    · simp at hm; rcases hm with rfl | rfl <;> exact ⟨_, _, rfl, by decide⟩
    · split at hm
      · simp at hm; rcases hm with rfl | rfl <;> exact ⟨_, _, rfl, by decide⟩
      · cases hm
  rw [← macro_match _ _ name hid text hw hne .bol (.inl rfl)]
  have : ∀ st' k', (newstyleRe a name).M ⟨none, text⟩ [] st' k' ↔
      (Re.seq .bol (.seq (.seq (if a.compat then .opt (.lit cs!"COMPAT_") else .eps)
      (.seq (.lit cs!"SYSCALL") (.seq (.opt (.lit cs!"32")) (.lit cs!"_DEFINE"))))
        (.cat [.chr isDigit, reWs, .lit cs!"(", nameRe name, .wordB]))).M ⟨none, text⟩ [] st' k' := by
    intro st' k'
    constructor
    · rintro ⟨m0, d0, h0, m1, d1, h1, m2, d2, h2, m3, d3, h3, m4, d4, h4, h5⟩
      exact ⟨m0, d0, h0, m4, d4, ⟨m1, d1, h1, m2, d2, h2, m3, d3, h3, h4⟩, h5⟩
    · rintro ⟨m0, d0, h0, m4, d4, ⟨m1, d1, h1, m2, d2, h2, m3, d3, h3, h4⟩, h5⟩
      exact ⟨m0, d0, h0, m1, d1, h1, m2, d2, h2, m3, d3, h3, m4, d4, h4, h5⟩
  simp only [this]

theorem ppcDefRe_match (name : Str) (hid : Ident name) (text : Str) :
    ((Re.cat [.wordB, .lit cs!"PPC32_SYSCALL_DEFINE", .chr isDigit, reWs, .lit cs!"(", nameRe name, .wordB]).match? text).isSome = true ↔
      MacroUse cs!"PPC32_SYSCALL_DEFINE" text name := by
  rw [Re.match?_isSome_iff]
  have := macro_match _ _ name hid text (words_lit cs!"PPC32_SYSCALL_DEFINE")
    (by intro m hm; simp at hm; subst hm; exact ⟨_, _, rfl, by decide⟩) .wordB (.inr rfl)
  simp only [List.mem_singleton, exists_eq_left] at this
  exact this

theorem Re.alt_match (r s : Re) (text : Str) :
    ((Re.alt r s).match? text).isSome = true ↔ (r.match? text).isSome = true ∨ (s.match? text).isSome = true := by
  simp only [Re.match?_isSome_iff]
  constructor
  · rintro ⟨st', c', h | h⟩
    · exact .inl ⟨st', c', h⟩
    · exact .inr ⟨st', c', h⟩
  · rintro (⟨st', c', h⟩ | ⟨st', c', h⟩)
    · exact ⟨st', c', .inl h⟩
    · exact ⟨st', c', .inr h⟩

/-- the arch-specific pattern -/
theorem defRe_match (a : Arch) (name : Str) (hid : Ident name) (text : Str) :
    (match a.defRe name with | none => false | some r => (r.match? text).isSome) = true ↔
      ((a.kind = .powerpc ∧ a.abi = cs!"ppc32") ∧ MacroUse cs!"PPC32_SYSCALL_DEFINE" text name) ∨
      ∃ fn ∈ archNames a name, AsmText text fn true := by
  have hn := hid.2
  have hone : ∀ px : Str, (((oddAsmRe (.seq (.lit px) (nameRe name))).match? text).isSome = true ↔ AsmText text (px ++ name) true) := by
    intro px
    rw [oddAsmRe_match _ _ (words_seq _ _ _ _ (words_lit px) (words_name name hn))]
    simp
  have hzero : ((oddAsmRe (nameRe name)).match? text).isSome = true ↔ AsmText text name true := by
    rw [oddAsmRe_match _ _ (words_name name hn)]
    simp
  have hmips : ((oddAsmRe (.seq (.alt (.lit cs!"sysm") (.lit cs!"mipsmt_sys")) (.seq (.lit cs!"_") (nameRe name)))).match? text).isSome = true ↔
      AsmText text (cs!"sysm_" ++ name) true ∨ AsmText text (cs!"mipsmt_sys_" ++ name) true := by
    rw [oddAsmRe_match _ _ (words_seq _ _ _ _ (words_alt _ _ _ _ (words_lit _) (words_lit _))
      (words_seq _ _ _ _ (words_lit cs!"_") (words_name name hn)))]
    simp
  unfold Arch.defRe archNames
  cases hk : a.kind with
  | arm =>
    by_cases h : a.abi = cs!"oabi"
    · by_cases hp : cs!"sys_oabi_" <+: name
      · simp [h, (startsWith_iff name _).2 hp, hp, hzero]
      · have : startsWith name cs!"sys_oabi_" = false := Bool.eq_false_iff.2 fun hc => hp ((startsWith_iff _ _).1 hc)
        simp only [h, ne_eq, not_true_eq_false, if_false, this, Bool.false_eq_true, if_true, hone, if_neg hp]
        simp
    · simp [h]
  | x86 =>
    by_cases h : a.abi = cs!"x32"
    · by_cases hp : cs!"sys32_x32_" <+: name
      · simp [h, (startsWith_iff name _).2 hp, hp, hzero]
      · have : startsWith name cs!"sys32_x32_" = false := Bool.eq_false_iff.2 fun hc => hp ((startsWith_iff _ _).1 hc)
        simp only [h, ne_eq, not_true_eq_false, if_false, this, Bool.false_eq_true, if_true, hone, if_neg hp]
        simp
    · simp [h]
  | powerpc =>
    by_cases h : a.abi = cs!"ppc32"
    · simp only [h, ne_eq, not_true_eq_false, if_false, ppcDefRe_match name hid]
      simp
    · simp [h]
  | riscv => simp
  | arm64 => simp
  | mips =>
    have hpre : anyprefix name [cs!"sysm_", cs!"mipsmt_sys_"] = true ↔ cs!"sysm_" <+: name ∨ cs!"mipsmt_sys_" <+: name := by
      simp [anyprefix, startsWith_iff]
    have hpre2 : anyprefix name [cs!"sysn32_"] = true ↔ cs!"sysn32_" <+: name := by
      simp [anyprefix, startsWith_iff]
    have hfirst : ((if anyprefix name [cs!"sysm_", cs!"mipsmt_sys_"] then oddAsmRe (nameRe name)
        else oddAsmRe (.seq (.alt (.lit cs!"sysm") (.lit cs!"mipsmt_sys")) (.seq (.lit cs!"_") (nameRe name)))).match? text).isSome = true ↔
        ∃ fn ∈ (if cs!"sysm_" <+: name ∨ cs!"mipsmt_sys_" <+: name then [name] else [cs!"sysm_" ++ name, cs!"mipsmt_sys_" ++ name]),
          AsmText text fn true := by
      by_cases hp : cs!"sysm_" <+: name ∨ cs!"mipsmt_sys_" <+: name
      · rw [if_pos (hpre.2 hp), if_pos hp, hzero]; simp
      · rw [if_neg (fun hc => hp (hpre.1 hc)), if_neg hp, hmips]; simp
    by_cases h : a.abi = cs!"n32"
    · have hsecond : ((if anyprefix name [cs!"sysn32_"] then oddAsmRe (nameRe name)
          else oddAsmRe (.seq (.lit cs!"sysn32_") (nameRe name))).match? text).isSome = true ↔
          ∃ fn ∈ (if cs!"sysn32_" <+: name then [name] else [cs!"sysn32_" ++ name]), AsmText text fn true := by
        by_cases hp : cs!"sysn32_" <+: name
        · rw [if_pos (hpre2.2 hp), if_pos hp, hzero]; simp
        · rw [if_neg (fun hc => hp (hpre2.1 hc)), if_neg hp, hone]; simp
      have hlist : (if anyprefix name [cs!"sysn32_"] then [oddAsmRe (nameRe name)]
          else [oddAsmRe (.seq (.lit cs!"sysn32_") (nameRe name))]) =
          [if anyprefix name [cs!"sysn32_"] then oddAsmRe (nameRe name)
            else oddAsmRe (.seq (.lit cs!"sysn32_") (nameRe name))] := by split <;> rfl
      simp only [h, if_true, hlist, altRe, Re.alt_match, hfirst, hsecond, List.mem_append]
      constructor
      · rintro (⟨fn, h1, h2⟩ | ⟨fn, h1, h2⟩)
        · exact .inr ⟨fn, .inl h1, h2⟩
        · exact .inr ⟨fn, .inr h1, h2⟩
      · rintro (⟨⟨h1, -⟩, -⟩ | ⟨fn, h1 | h1, h2⟩)
        · cases h1
        · exact .inl ⟨fn, h1, h2⟩
        · exact .inr ⟨fn, h1, h2⟩
    · simp only [h, if_false, altRe, hfirst, List.append_nil]
      constructor
      · exact .inr
      · rintro (⟨⟨h1, -⟩, -⟩ | h1)
        · cases h1
        · exact h1

/-- acceptance of a definition is the specification -/
theorem goodDefinition_iff (a : Arch) (text name : Str) (hid : Ident name) :
    goodDefinition a text name = true ↔ Defines a text name := by
  have h1 := newstyleRe_match a name hid text
  have h2 := oldstyleRe_match name hid.2 text
  have h3 := fullnameRe_match name hid.2 text
  have h4 := defRe_match a name hid text
  have hmac : (∃ m ∈ macrosOf a, MacroUse m text name) ↔ (∃ m ∈ newMacros a, MacroUse m text name) ∨
      ((a.kind = .powerpc ∧ a.abi = cs!"ppc32") ∧ MacroUse cs!"PPC32_SYSCALL_DEFINE" text name) := by
    simp only [macrosOf, newMacros]
    by_cases hp : a.kind = .powerpc ∧ a.abi = cs!"ppc32"
    · rw [if_pos hp]
      simp only [List.mem_append, List.mem_singleton, hp, true_and]
      constructor
      · rintro ⟨m, hm | rfl, h⟩
        · exact .inl ⟨m, hm, h⟩
        · exact .inr h
      · rintro (⟨m, hm, h⟩ | h)
        · exact ⟨m, .inl hm, h⟩
        · exact ⟨_, .inr rfl, h⟩
    · rw [if_neg hp]
      simp only [List.append_nil, hp, false_and, or_false]
  have hodd : (∃ fn ∈ oddNames a name, AsmText text fn true) ↔ (cs!"sys_" <+: name ∧ AsmText text name true) ∨ ∃ fn ∈ archNames a name, AsmText text fn true :=
    (by
      simp only [oddNames, List.mem_append]
      constructor
      · rintro ⟨fn, h | h, h'⟩
        · split at h
          · next hp => cases List.mem_singleton.1 h; exact .inl ⟨hp, h'⟩
          · cases h
        · exact .inr ⟨fn, h, h'⟩
      · rintro (⟨hp, h⟩ | ⟨fn, h, h'⟩)
        · exact ⟨name, .inl (by rw [if_pos hp]; simp), h⟩
        · exact ⟨fn, .inr h, h'⟩)
  simp only [Defines, hmac, hodd]
  rw [or_assoc (a := ∃ m ∈ newMacros a, _), ← h1, ← h2, ← h3]
  have hlast := h4
  simp only [goodDefinition]
  by_cases hA : ((Re.alt (newstyleRe a name) (oldstyleRe name)).match? text).isSome = true
  · rw [if_pos hA]
    rw [Re.alt_match] at hA
    simp only [true_iff]
    rcases hA with hA | hA
    · exact .inl hA
    · exact .inr (.inr (.inl hA))
  · rw [if_neg hA]
    rw [Re.alt_match, not_or] at hA
    by_cases hB : startsWith name cs!"sys_" = true ∧ ((fullnameRe name).match? text).isSome = true
    · rw [if_pos (by simp [hB])]
      simp only [true_iff]
      exact .inr (.inr (.inr (.inl ⟨(startsWith_iff _ _).1 hB.1, hB.2⟩)))
    · rw [if_neg (by simpa using hB)]
      refine Iff.trans h4 ?_
      constructor
      · rintro (h | h)
        · exact .inr (.inl h)
        · exact .inr (.inr (.inr (.inr h)))
      · rintro (h | h | h | h | h)
        · exact absurd h hA.1
        · exact .inl h
        · exact absurd h hA.2
        · exact absurd ⟨(startsWith_iff _ _).2 h.1, h.2⟩ hB
        · exact .inr h

end Verif
