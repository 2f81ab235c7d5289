import Verif.Lemmas.Elf
/-! Parsing of section headers. -/
set_option autoImplicit false

namespace Verif
open Spec

/-! ## words of a text -/

theorem sec_splitWsGo_word (w : Str) (hw : ∀ c ∈ w, isSpace c = false) : ∀ (cur rest : Str),
    splitWsGo cur (w ++ rest) = splitWsGo (w.reverse ++ cur) rest := by
  induction w with
  | nil => intro cur rest; rfl
  | cons c w ih =>
    intro cur rest
    simp only [List.cons_append, splitWsGo, hw c (by simp), Bool.false_eq_true, if_false]
    rw [ih (fun x hx => hw x (by simp [hx]))]
    simp

/-- the rest does not continue a word -/
def BlankStart (s : Str) : Prop := ∀ c cs, s = c :: cs → isSpace c = true

theorem sec_splitWs_space (c : Char) (s : Str) (h : isSpace c = true) : splitWs (c :: s) = splitWs s := by
  simp [splitWs, splitWsGo, h]

theorem sec_splitWs_spaces (sp s : Str) (h : ∀ c ∈ sp, isSpace c = true) : splitWs (sp ++ s) = splitWs s := by
  induction sp with
  | nil => rfl
  | cons c sp ih => rw [List.cons_append, sec_splitWs_space c _ (h c (by simp)), ih (fun x hx => h x (by simp [hx]))]

theorem sec_splitWs_word (w rest : Str) (hne : w ≠ []) (hw : ∀ c ∈ w, isSpace c = false) (hr : BlankStart rest) :
    splitWs (w ++ rest) = w :: splitWs rest := by
  unfold splitWs
  rw [sec_splitWsGo_word w hw]
  cases rest with
  | nil => simp [splitWsGo, hne]
  | cons c cs => simp [splitWsGo, hr c cs rfl, hne]

theorem word_split (s : Str) : ∃ w r, s = w ++ r ∧ (∀ c ∈ w, isSpace c = false) ∧ BlankStart r := by
  induction s with
  | nil => exact ⟨[], [], rfl, by simp, by intro c cs h; cases h⟩
  | cons c s ih =>
    cases h : isSpace c with
    | true => exact ⟨[], c :: s, rfl, by simp, by intro x xs he; cases he; exact h⟩
    | false =>
      obtain ⟨w, r, rfl, hw, hr⟩ := ih
      refine ⟨c :: w, r, rfl, ?_, hr⟩
      intro x hx
      rcases List.mem_cons.1 hx with rfl | hx
      · exact h
      · exact hw x hx

/-! ## one match -/

/-- `[.\w]` -/
def secNameChar (c : Char) : Bool := c == '.' || isWord c

theorem secNameChar_not_space (c : Char) (h : secNameChar c = true) : isSpace c = false := by
  unfold secNameChar at h
  rw [Bool.or_eq_true] at h
  rcases h with h | h
  · rw [beq_iff_eq] at h; subst h; decide
  · exact isWord_not_space c h

theorem secType_cases (t : Str) (h : t ∈ secTypes) : t = cs!"PROGBITS" ∨ t = cs!"NOBITS" := by
  simpa [secTypes] using h

theorem secType_facts (t : Str) (h : t ∈ secTypes) :
    t ≠ [] ∧ (∀ c ∈ t, isSpace c = false) ∧ ∀ y ys u, t ++ u = y :: ys → isSpace y = false := by
  rcases secType_cases t h with rfl | rfl
  · refine ⟨by decide, by decide, ?_⟩
    intro y ys u he; simp at he; rw [← he.1]; decide
  · refine ⟨by decide, by decide, ?_⟩
    intro y ys u he; simp at he; rw [← he.1]; decide

def Spaces (s : Str) : Prop := s ≠ [] ∧ ∀ c ∈ s, isSpace c = true

theorem sp_greedy {α : Type} (prev : Option Char) (a b : Str) (caps : Caps) (k : St → Caps → Option α) (x : α)
    (ha : Spaces a) (hb : ∀ y ys, b = y :: ys → isSpace y = false) (hk : k ⟨lastOr prev a, b⟩ caps = some x) :
    reSp.go ⟨prev, a ++ b⟩ caps k = some x :=
  Re.go_plus_greedy _ _ _ _ _ _ _ ha.1 ha.2 hb hk

theorem take_front (a b : Str) : (a ++ b).take ((a ++ b).length - b.length) = a := by simp

theorem go_type {α : Type} (t : Str) (ht : t ∈ secTypes) (prev : Option Char) (rest : Str) (caps : Caps)
    (k : St → Caps → Option α) (x : α) (hk : k ⟨lastOr prev t, rest⟩ ((2, t) :: caps) = some x) :
    (Re.grp 2 (.alt (.lit cs!"PROGBITS") (.lit cs!"NOBITS"))).go ⟨prev, t ++ rest⟩ caps k = some x := by
  rcases secType_cases t ht with rfl | rfl
  · simp only [Re.go, Re.go_lit]
    rw [take_front]
    rw [hk]
  · simp only [Re.go, Re.go_lit]
    rw [take_front]
    have : ∀ k' : St → Caps → Option α, (Re.lit cs!"PROGBITS").go ⟨prev, cs!"NOBITS" ++ rest⟩ caps k' = none := by
      intro k'; simp [Re.lit, Re.go]
    rw [this, hk]

/-- where the five words are, the expression matches -/
theorem sectionRe_pos (prev : Option Char) (c : Char) (nm sp1 t sp2 va sp3 off sp4 sz rest : Str)
    (hc : isSpace c = true) (hnm : nm ≠ [] ∧ ∀ x ∈ nm, secNameChar x = true) (h1 : Spaces sp1) (ht : t ∈ secTypes)
    (h2 : Spaces sp2) (hva : va ≠ [] ∧ ∀ x ∈ va, isHexDigit x = true) (h3 : Spaces sp3)
    (hoff : off ≠ [] ∧ ∀ x ∈ off, isHexDigit x = true) (h4 : Spaces sp4)
    (hsz : sz ≠ [] ∧ ∀ x ∈ sz, isHexDigit x = true) (hrest : ∀ y ys, rest = y :: ys → isHexDigit y = false) :
    ∃ p, sectionRe.go ⟨prev, c :: (nm ++ (sp1 ++ (t ++ (sp2 ++ (va ++ (sp3 ++ (off ++ (sp4 ++ (sz ++ rest)))))))))⟩ []
        (fun st caps => some (caps, st)) =
      some ([(5, sz), (4, off), (3, va), (2, t), (1, nm)], ⟨p, rest⟩) := by
  have hsp : ∀ (s u : Str), Spaces s → ∀ (p : Char → Bool), (∀ x, isSpace x = true → p x = false) →
      ∀ y ys, s ++ u = y :: ys → p y = false := by
    intro s u hs p hp y ys he
    exact head_of_class hs.1 (fun x hx => hp x (hs.2 x hx)) u y ys he
  have n1 : ∀ x, isSpace x = true → (x == '.' || isWord x) = false := by
    intro x hx
    cases h : (x == '.' || isWord x) with
    | false => rfl
    | true => rw [secNameChar_not_space x h] at hx; cases hx
  have n2 : ∀ x, isSpace x = true → isHexDigit x = false := by
    intro x hx
    cases h : isHexDigit x with
    | false => rfl
    | true => rw [isHexDigit_not_space x h] at hx; cases hx
  refine ⟨lastOr (lastOr (lastOr (lastOr (lastOr (lastOr (lastOr (lastOr (lastOr (some c) nm) sp1) t) sp2) va) sp3) off) sp4) sz, ?_⟩
  unfold sectionRe
  rw [Re.cat, Re.go_seq]
  · simp only [Re.go, hc, if_true]
    rw [Re.cat, Re.go_seq]
    · refine grp_plus_greedy _ _ _ _ _ _ _ _ hnm.1 hnm.2 (hsp _ _ h1 _ n1) ?_
      rw [Re.cat, Re.go_seq]
      · refine sp_greedy _ _ _ _ _ _ h1 (fun y ys he => (secType_facts t ht).2.2 y ys _ he) ?_
        rw [Re.cat, Re.go_seq]
        · refine go_type t ht _ _ _ _ _ ?_
          rw [Re.cat, Re.go_seq]
          · refine sp_greedy _ _ _ _ _ _ h2 (head_of_class hva.1 (fun x hx => isHexDigit_not_space x (hva.2 x hx)) _) ?_
            rw [Re.cat, Re.go_seq]
            · refine grp_plus_greedy _ _ _ _ _ _ _ _ hva.1 hva.2 (hsp _ _ h3 _ n2) ?_
              rw [Re.cat, Re.go_seq]
              · refine sp_greedy _ _ _ _ _ _ h3 (head_of_class hoff.1 (fun x hx => isHexDigit_not_space x (hoff.2 x hx)) _) ?_
                rw [Re.cat, Re.go_seq]
                · refine grp_plus_greedy _ _ _ _ _ _ _ _ hoff.1 hoff.2 (hsp _ _ h4 _ n2) ?_
                  rw [Re.cat, Re.go_seq]
                  · refine sp_greedy _ _ _ _ _ _ h4 (head_of_class hsz.1 (fun x hx => isHexDigit_not_space x (hsz.2 x hx)) _) ?_
                    rw [Re.cat]
                    refine grp_plus_greedy _ _ _ _ _ _ _ _ hsz.1 hsz.2 hrest ?_
                    rfl
                  · simp
                · simp
              · simp
            · simp
          · simp
        · simp
      · simp
    · simp
  · simp

/-- what a match says -/
theorem sectionRe_neg (prev : Option Char) (s : Str) (x : Caps × St)
    (h : sectionRe.go ⟨prev, s⟩ [] (fun st caps => some (caps, st)) = some x) :
    ∃ c nm sp1 t sp2 va sp3 off sp4 sz rest,
      s = c :: (nm ++ (sp1 ++ (t ++ (sp2 ++ (va ++ (sp3 ++ (off ++ (sp4 ++ (sz ++ rest))))))))) ∧
      isSpace c = true ∧ (nm ≠ [] ∧ ∀ x ∈ nm, secNameChar x = true) ∧ Spaces sp1 ∧ t ∈ secTypes ∧ Spaces sp2 ∧
      (va ≠ [] ∧ ∀ x ∈ va, isHexDigit x = true) ∧ Spaces sp3 ∧ (off ≠ [] ∧ ∀ x ∈ off, isHexDigit x = true) ∧ Spaces sp4 ∧
      (sz ≠ [] ∧ ∀ x ∈ sz, isHexDigit x = true) := by
  obtain ⟨st, caps, hM, -⟩ := Re.go_sound _ _ _ _ _ h
  simp only [sectionRe, Re.cat, Re.M, reSp, reHex, Re.M_plus, Re.M_lit] at hM
  obtain ⟨m0, c0, ⟨ch, cs, e0, hch, rfl, rfl⟩, m1, c1, ⟨c1', ⟨nm, hn, hn', e1, -, rfl⟩, rfl⟩,
    m2, c2, ⟨sp1, hs1, hs1', e2, -, rfl⟩, m3, c3, ⟨c3', ht, rfl⟩, m4, c4, ⟨sp2, hs2, hs2', e4, -, rfl⟩,
    m5, c5, ⟨c5', ⟨va, hv, hv', e5, -, rfl⟩, rfl⟩, m6, c6, ⟨sp3, hs3, hs3', e6, -, rfl⟩,
    m7, c7, ⟨c7', ⟨off, ho, ho', e7, -, rfl⟩, rfl⟩, m8, c8, ⟨sp4, hs4, hs4', e8, -, rfl⟩,
    c9, ⟨sz, hz, hz', e9, -, rfl⟩, rfl⟩ := hM
  simp only at e0 e1
  rcases ht with ⟨e3, -, -⟩ | ⟨e3, -, -⟩
  · refine ⟨ch, nm, sp1, cs!"PROGBITS", sp2, va, sp3, off, sp4, sz, st.rest, ?_, hch, ⟨hn, hn'⟩, ⟨hs1, hs1'⟩, by decide,
      ⟨hs2, hs2'⟩, ⟨hv, hv'⟩, ⟨hs3, hs3'⟩, ⟨ho, ho'⟩, ⟨hs4, hs4'⟩, hz, hz'⟩
    rw [e0, e1, e2, e3, e4, e5, e6, e7, e8, e9]
  · refine ⟨ch, nm, sp1, cs!"NOBITS", sp2, va, sp3, off, sp4, sz, st.rest, ?_, hch, ⟨hn, hn'⟩, ⟨hs1, hs1'⟩, by decide,
      ⟨hs2, hs2'⟩, ⟨hv, hv'⟩, ⟨hs3, hs3'⟩, ⟨ho, ho'⟩, ⟨hs4, hs4'⟩, hz, hz'⟩
    rw [e0, e1, e2, e3, e4, e5, e6, e7, e8, e9]

/-! ## all matches -/

/-- the five words are a match -/
def secCond (w0 w1 w2 w3 w4 : Str) : Prop :=
  (w0 ≠ [] ∧ ∀ x ∈ w0, secNameChar x = true) ∧ w1 ∈ secTypes ∧ (w2 ≠ [] ∧ ∀ x ∈ w2, isHexDigit x = true) ∧
  (w3 ≠ [] ∧ ∀ x ∈ w3, isHexDigit x = true) ∧ w4.takeWhile isHexDigit ≠ []

instance (w0 w1 w2 w3 w4 : Str) : Decidable (secCond w0 w1 w2 w3 w4) := by unfold secCond; infer_instance

/-- sections in a list of words -/
def secWords : List Str → List Section
  | w0 :: w1 :: w2 :: w3 :: w4 :: ws =>
    if secCond w0 w1 w2 w3 w4 then ⟨w0, natOfHex w2, natOfHex w3, natOfHex (w4.takeWhile isHexDigit)⟩ :: secWords ws
    else secWords (w1 :: w2 :: w3 :: w4 :: ws)
  | _ => []

theorem secWords_short (ws : List Str) (h : ws.length < 5) : secWords ws = [] := by
  match ws, h with
  | [], _ => rfl
  | [_], _ => rfl
  | [_, _], _ => rfl
  | [_, _, _], _ => rfl
  | [_, _, _, _], _ => rfl
  | _ :: _ :: _ :: _ :: _ :: _, h => simp at h; omega

theorem secWords_skip (w : Str) (ws : List Str)
    (h : ∀ w1 w2 w3 w4 tl, ws = w1 :: w2 :: w3 :: w4 :: tl → ¬ secCond w w1 w2 w3 w4) : secWords (w :: ws) = secWords ws := by
  match ws, h with
  | [], _ => rfl
  | [_], _ => rfl
  | [_, _], _ => rfl
  | [_, _, _], _ => rfl
  | w1 :: w2 :: w3 :: w4 :: tl, h => rw [secWords, if_neg (h _ _ _ _ _ rfl)]

theorem secWords_hit (w0 w1 w2 w3 w4 : Str) (ws : List Str) (h : secCond w0 w1 w2 w3 w4) :
    secWords (w0 :: w1 :: w2 :: w3 :: w4 :: ws) =
      ⟨w0, natOfHex w2, natOfHex w3, natOfHex (w4.takeWhile isHexDigit)⟩ :: secWords ws := by
  rw [secWords, if_pos h]

theorem findIter_step (r : Re) (f : Nat) (p : Option Char) (c : Char) (s : Str)
    (h : r.go ⟨p, c :: s⟩ [] (fun st caps => some (caps, st)) = none) :
    r.findIter (f + 1) ⟨p, c :: s⟩ = r.findIter (f + 1) ⟨some c, s⟩ := by
  simp only [Re.findIter, Re.searchFrom, h]

theorem findIter_hit (r : Re) (f : Nat) (p : Option Char) (c : Char) (s : Str) (caps : Caps) (st : St)
    (h : r.go ⟨p, c :: s⟩ [] (fun st caps => some (caps, st)) = some (caps, st)) :
    r.findIter (f + 1) ⟨p, c :: s⟩ = caps :: r.findIter f st := by
  simp only [Re.findIter, Re.searchFrom, h]

theorem sectionRe_nonspace (p : Option Char) (c : Char) (s : Str) (h : isSpace c = false) :
    sectionRe.go ⟨p, c :: s⟩ [] (fun st caps => some (caps, st)) = none := by
  cases hg : sectionRe.go ⟨p, c :: s⟩ [] (fun st caps => some (caps, st)) with
  | none => rfl
  | some x =>
    obtain ⟨c', _, _, _, _, _, _, _, _, _, _, he, hc, _⟩ := sectionRe_neg _ _ _ hg
    simp only [List.cons.injEq] at he
    rw [he.1, hc] at h; cases h

theorem findIter_word (f : Nat) (w r : Str) (hw : ∀ c ∈ w, isSpace c = false) : ∀ p, ∃ q,
    sectionRe.findIter (f + 1) ⟨p, w ++ r⟩ = sectionRe.findIter (f + 1) ⟨q, r⟩ := by
  induction w with
  | nil => intro p; exact ⟨p, rfl⟩
  | cons c w ih =>
    intro p
    rw [List.cons_append, findIter_step _ _ _ _ _ (sectionRe_nonspace p c _ (hw c (by simp)))]
    exact ih (fun x hx => hw x (by simp [hx])) _

theorem BlankStart.spaces {s : Str} (h : Spaces s) (t : Str) : BlankStart (s ++ t) := by
  intro c cs he
  cases s with
  | nil => exact absurd rfl h.1
  | cons x xs => simp at he; rw [← he.1]; exact h.2 x (by simp)

/-- the first word of a text that starts with a blank -/
theorem splitWs_uncons (s : Str) (hb : BlankStart s) (w : Str) (ws : List Str) (h : splitWs s = w :: ws) :
    ∃ sp r, s = sp ++ (w ++ r) ∧ Spaces sp ∧ w ≠ [] ∧ (∀ c ∈ w, isSpace c = false) ∧ BlankStart r ∧ splitWs r = ws := by
  induction s with
  | nil => simp [splitWs, splitWsGo] at h
  | cons c t ih =>
    have hc := hb c t rfl
    rw [sec_splitWs_space c t hc] at h
    obtain ⟨w', r, rfl, hw, hr⟩ := word_split t
    by_cases hne : w' = []
    · subst hne
      obtain ⟨sp, r', e, hsp, h1, h2, h3, h4⟩ := ih hr h
      refine ⟨c :: sp, r', by rw [e]; rfl, ⟨by simp, ?_⟩, h1, h2, h3, h4⟩
      intro x hx
      rcases List.mem_cons.1 hx with rfl | hx
      · exact hc
      · exact hsp.2 x hx
    · rw [sec_splitWs_word w' r hne hw hr] at h
      simp only [List.cons.injEq] at h
      obtain ⟨rfl, rfl⟩ := h
      exact ⟨[c], r, rfl, ⟨by simp, by simpa using hc⟩, hne, hw, hr, rfl⟩

theorem hex_split (s : Str) : ∃ a b, s = a ++ b ∧ (∀ x ∈ a, isHexDigit x = true) ∧ ∀ y ys, b = y :: ys → isHexDigit y = false := by
  induction s with
  | nil => exact ⟨[], [], rfl, by simp, by intro y ys h; cases h⟩
  | cons c s ih =>
    cases h : isHexDigit c with
    | false => exact ⟨[], c :: s, rfl, by simp, by intro y ys he; cases he; exact h⟩
    | true =>
      obtain ⟨a, b, rfl, ha, hb⟩ := ih
      refine ⟨c :: a, b, rfl, ?_, hb⟩
      intro x hx
      rcases List.mem_cons.1 hx with rfl | hx
      · exact h
      · exact ha x hx

theorem takeWhile_front (p : Char → Bool) (a b : Str) (ha : ∀ x ∈ a, p x = true) (hb : ∀ y ys, b = y :: ys → p y = false) :
    (a ++ b).takeWhile p = a := by
  induction a with
  | nil =>
    cases b with
    | nil => rfl
    | cons y ys => simp [List.takeWhile, hb y ys rfl]
  | cons x a ih => simp [List.takeWhile, ha x (by simp), ih (fun z hz => ha z (by simp [hz]))]

theorem sectionRe_all (n : Nat) : ∀ (s : Str), s.length ≤ n → BlankStart s → ∀ (f : Nat) (p : Option Char), s.length < f →
    (sectionRe.findIter f ⟨p, s⟩).filterMap sectionOfCaps = secWords (splitWs s) := by
  induction n with
  | zero =>
    intro s hl _ f p hf
    cases s with
    | cons c s => simp at hl
    | nil =>
      cases f with
      | zero => rfl
      | succ f => simp [Re.findIter, Re.searchFrom, sectionRe, Re.cat, Re.go, splitWs, splitWsGo, secWords]
  | succ n ih =>
    intro s hl hb f p hf
    cases s with
    | nil =>
      cases f with
      | zero => rfl
      | succ f => simp [Re.findIter, Re.searchFrom, sectionRe, Re.cat, Re.go, splitWs, splitWsGo, secWords]
    | cons c t =>
      obtain ⟨f, rfl⟩ : ∃ g, f = g + 1 := ⟨f - 1, by simp at hf; omega⟩
      have hc := hb c t rfl
      simp only [List.length_cons] at hl hf
      cases hg : sectionRe.go ⟨p, c :: t⟩ [] (fun st caps => some (caps, st)) with
      | some x =>
        obtain ⟨c', nm, sp1, ty, sp2, va, sp3, off, sp4, sz, rest', he, -, hnm, h1, ht, h2, hva, h3, hoff, h4, hsz⟩ :=
          sectionRe_neg _ _ _ hg
        obtain ⟨hx, rest, hx1, hx2, hx3⟩ := hex_split (sz ++ rest')
        have hxne : hx ≠ [] := by
          rintro rfl
          cases hsz' : sz with
          | nil => exact hsz.1 hsz'
          | cons y ys =>
            rw [hsz'] at hx1
            have := hx3 y (ys ++ rest') (by simpa using hx1.symm)
            rw [hsz.2 y (by simp [hsz'])] at this; cases this
        simp only [List.cons.injEq] at he
        obtain ⟨rfl, he⟩ := he
        rw [hx1] at he
        obtain ⟨q, hpos⟩ := sectionRe_pos p c nm sp1 ty sp2 va sp3 off sp4 hx rest hc hnm h1 ht h2 hva h3 hoff h4
          ⟨hxne, hx2⟩ hx3
        rw [he, findIter_hit _ _ _ _ _ _ _ hpos]
        obtain ⟨tw, r, rfl, htw, hr⟩ := word_split rest
        have hlen := congrArg List.length he
        simp only [List.length_append] at hlen
        have hp1 := List.length_pos_iff.2 hnm.1
        have hp2 := List.length_pos_iff.2 hxne
        obtain ⟨f', rfl⟩ : ∃ g, f = g + 1 := ⟨f - 1, by omega⟩
        obtain ⟨q', hq'⟩ := findIter_word f' tw r htw q
        rw [hq', List.filterMap_cons]
        have hsec : sectionOfCaps [(5, hx), (4, off), (3, va), (2, ty), (1, nm)] =
            some ⟨nm, natOfHex va, natOfHex off, natOfHex hx⟩ := by simp [sectionOfCaps, Caps.group, dget]
        rw [hsec]
        simp only
        rw [ih r (by omega) hr (f' + 1) q' (by omega)]
        rw [sec_splitWs_space c _ hc,
          sec_splitWs_word nm _ hnm.1 (fun x hx => secNameChar_not_space x (hnm.2 x hx)) (BlankStart.spaces h1 _),
          sec_splitWs_spaces _ _ h1.2,
          sec_splitWs_word ty _ (secType_facts ty ht).1 (secType_facts ty ht).2.1 (BlankStart.spaces h2 _),
          sec_splitWs_spaces _ _ h2.2,
          sec_splitWs_word va _ hva.1 (fun x hx => isHexDigit_not_space x (hva.2 x hx)) (BlankStart.spaces h3 _),
          sec_splitWs_spaces _ _ h3.2,
          sec_splitWs_word off _ hoff.1 (fun x hx => isHexDigit_not_space x (hoff.2 x hx)) (BlankStart.spaces h4 _),
          sec_splitWs_spaces _ _ h4.2, ← List.append_assoc hx tw r,
          sec_splitWs_word (hx ++ tw) r (by simp [hxne]) (by
            intro x hx'
            rcases List.mem_append.1 hx' with h | h
            · exact isHexDigit_not_space x (hx2 x h)
            · exact htw x h) hr]
        have htk : (hx ++ tw).takeWhile isHexDigit = hx := by
          apply takeWhile_front _ _ _ hx2
          intro y ys he
          exact hx3 y (ys ++ r) (by rw [he]; rfl)
        rw [secWords_hit nm ty va off (hx ++ tw) _ ⟨hnm, ht, hva, hoff, by rw [htk]; exact hxne⟩, htk]
      | none =>
        rw [findIter_step _ _ _ _ _ hg, sec_splitWs_space c t hc]
        obtain ⟨w, r, rfl, hw, hr⟩ := word_split t
        obtain ⟨q, hq⟩ := findIter_word f w r hw (some c)
        simp only [List.length_append] at hl hf
        rw [hq, ih r (by omega) hr (f + 1) q (by omega)]
        by_cases hne : w = []
        · subst hne; rfl
        · rw [sec_splitWs_word w r hne hw hr, secWords_skip]
          intro w1 w2 w3 w4 tl hs hcond
          obtain ⟨sp1, r1, rfl, hs1, -, -, hb1, e1⟩ := splitWs_uncons r hr w1 _ hs
          obtain ⟨sp2, r2, rfl, hs2, -, -, hb2, e2⟩ := splitWs_uncons r1 hb1 w2 _ e1
          obtain ⟨sp3, r3, rfl, hs3, -, -, hb3, e3⟩ := splitWs_uncons r2 hb2 w3 _ e2
          obtain ⟨sp4, r4, rfl, hs4, hn4, -, hb4, e4⟩ := splitWs_uncons r3 hb3 w4 _ e3
          obtain ⟨c0, c1, c2, c3, c4⟩ := hcond
          obtain ⟨hx, tw, rfl, hx2, hx3⟩ := hex_split w4
          rw [takeWhile_front _ _ _ hx2 hx3] at c4
          obtain ⟨q', hpos⟩ := sectionRe_pos p c w sp1 w1 sp2 w2 sp3 w3 sp4 hx (tw ++ r4) hc c0 hs1 c1 hs2 c2 hs3 c3 hs4
            ⟨c4, hx2⟩ (by
              intro y ys he
              cases tw with
              | nil =>
                cases h : isHexDigit y with
                | false => rfl
                | true =>
                  have := hb4 y ys he
                  rw [isHexDigit_not_space y h] at this; cases this
              | cons z zs => simp at he; rw [← he.1]; exact hx3 z zs rfl)
          rw [List.append_assoc hx tw r4] at hg
          rw [hpos] at hg; cases hg

/-- the sections of any output: those found in its words, the first one left out unless a blank comes before it -/
theorem extractSections_words (out : Str) : ∃ ws, (ws = splitWs out ∨ ∃ w, w :: ws = splitWs out) ∧
    extractSections out = (secWords ws).foldl (fun d s => dset s.name s d) [] := by
  obtain ⟨w, r, rfl, hw, hr⟩ := word_split out
  obtain ⟨q, hq⟩ := findIter_word (w ++ r).length w r hw none
  refine ⟨splitWs r, ?_, ?_⟩
  · by_cases hne : w = []
    · subst hne; exact .inl rfl
    · exact .inr ⟨w, (sec_splitWs_word w r hne hw hr).symm⟩
  · unfold extractSections
    rw [hq, sectionRe_all r.length r (Nat.le_refl _) hr _ q (by simp; omega)]

/-! ## rows -/

theorem hexText_ne_nil (k n : Nat) : hexText k n ≠ [] := by
  unfold hexText
  simp [Nat.toDigits_ne_nil]

theorem hexText_hex (k n : Nat) : ∀ x ∈ hexText k n, isHexDigit x = true := by
  intro x hx
  rcases List.mem_append.1 hx with h | h
  · rw [List.eq_of_mem_replicate h]; decide
  · exact toDigits16_hex n x h

theorem isWord_alphanum (c : Char) : isWord c = true ↔ (c.isAlphanum = true ∨ c = '_') := by
  have hv : c.val.toNat = c.toNat := rfl
  have he : c = '_' ↔ c.toNat = 95 := by
    constructor
    · rintro rfl; rfl
    · intro h; rw [← Char.ofNat_toNat c, h]
  rw [he]
  simp only [isWord, Char.isAlphanum, Char.isAlpha, Char.isUpper, Char.isLower, Char.isDigit, Bool.or_eq_true,
    Bool.and_eq_true, decide_eq_true_eq, UInt32.le_iff_toNat_le, hv, beq_iff_eq, ge_iff_le]
  rw [show 'A'.val.toNat = 65 from rfl, show 'Z'.val.toNat = 90 from rfl,
    show 'a'.val.toNat = 97 from rfl, show 'z'.val.toNat = 122 from rfl,
    show '0'.val.toNat = 48 from rfl, show '9'.val.toNat = 57 from rfl]
  omega

theorem plainName_iff (n : Str) : PlainName n ↔ ∀ x ∈ n, secNameChar x = true := by
  unfold PlainName secNameChar
  refine forall_congr' fun c => imp_congr_right fun _ => ?_
  rw [Bool.or_eq_true, beq_iff_eq]
  have : isWord c = true ↔ (c.isAlphanum = true ∨ c = '_') := isWord_alphanum c
  rw [this]
  constructor
  · rintro (h | h | h)
    · exact .inr (.inl h)
    · exact .inr (.inr h)
    · exact .inl h
  · rintro (h | h | h)
    · exact .inr (.inr h)
    · exact .inl h
    · exact .inr (.inl h)

/-- the section of a row -/
def Spec.SecRow.sec (r : SecRow) : Section := ⟨r.name, r.vaddr, r.off, r.size⟩

theorem takeWhile_hexText (k n : Nat) : (hexText k n).takeWhile isHexDigit = hexText k n := by
  have := takeWhile_front isHexDigit (hexText k n) [] (hexText_hex k n) (by intro y ys h; cases h)
  simpa using this

theorem natOfHex_hexText (k n : Nat) : natOfHex (hexText k n) = n := by
  rw [hexText, natOfHex_zeros, natOfHex_toDigits]

theorem hexText_not_type (k n : Nat) : hexText k n ∉ secTypes := by
  intro h
  have hx := hexText_hex k n
  rcases secType_cases _ h with e | e
  · rw [e] at hx; exact absurd (hx 'P' (by decide)) (by decide)
  · rw [e] at hx; exact absurd (hx 'N' (by decide)) (by decide)

theorem secWords_inert (ws rest : List Str) (h : ∀ w ∈ ws, w ∉ secTypes) (x : Str)
    (hx : ∀ y ys, rest = y :: ys → y ∉ secTypes ∨ ∀ z zs, ys = z :: zs → ¬ ∀ c ∈ z, isHexDigit c = true) :
    secWords (x :: ws ++ rest) = secWords rest := by
  induction ws generalizing x with
  | nil =>
    rw [List.cons_append, List.nil_append, secWords_skip]
    intro w1 w2 w3 w4 tl he hc
    rcases hx w1 _ he with h1 | h1
    · exact h1 hc.2.1
    · exact h1 w2 _ rfl hc.2.2.1.2
  | cons w ws ih =>
    rw [List.cons_append, secWords_skip]
    · exact ih (fun z hz => h z (by simp [hz])) w
    · intro w1 w2 w3 w4 tl he hc
      simp only [List.cons_append, List.cons.injEq] at he
      exact h w (by simp) (he.1 ▸ hc.2.1)

theorem type_not_hex (t : Str) (h : t ∈ secTypes) : ¬ ∀ c ∈ t, isHexDigit c = true := by
  rcases secType_cases _ h with rfl | rfl <;> decide

theorem secWords_before (b : List Str) (hb : ∀ w ∈ b, w ∉ secTypes) (name type : Str) (ht : type ∈ secTypes) (rest : List Str) :
    secWords (b ++ name :: type :: rest) = secWords (name :: type :: rest) := by
  cases b with
  | nil => rfl
  | cons x b =>
    apply secWords_inert b _ (fun w hw => hb w (by simp [hw])) x
    intro y ys he
    simp only [List.cons.injEq] at he
    right
    intro z zs hz
    rw [← he.2] at hz
    simp only [List.cons.injEq] at hz
    rw [← hz.1]
    exact type_not_hex type ht

theorem secWords_none (ws : List Str) (h : ∀ w ∈ ws, w ∉ secTypes) : secWords ws = [] := by
  cases ws with
  | nil => rfl
  | cons x ws =>
    have := secWords_inert ws [] (fun w hw => h w (by simp [hw])) x (by intro y ys he; cases he)
    simpa [secWords] using this

/-- rows, the first of which may have lost its first word -/
theorem secWords_rows (rows : List SecRow) (after : List Str) (hr : ∀ r ∈ rows, r.WF) (hn : ∀ r ∈ rows, r.name ≠ [])
    (ha : ∀ w ∈ after, w ∉ secTypes) :
    secWords (rows.flatMap SecRow.words ++ after) = (rows.filter fun r => decide (PlainName r.name)).map SecRow.sec := by
  induction rows with
  | nil => simpa using secWords_none after ha
  | cons r rows ih =>
    have hw := hr r (by simp)
    have ih := ih (fun x hx => hr x (by simp [hx])) (fun x hx => hn x (by simp [hx]))
    rw [List.flatMap_cons, SecRow.words]
    simp only [List.append_assoc, List.cons_append, List.nil_append]
    rw [secWords_before r.before hw.before.2 r.name r.type hw.type]
    by_cases hp : PlainName r.name
    · rw [secWords_hit _ _ _ _ _ _ ⟨⟨hn r (by simp), (plainName_iff _).1 hp⟩, hw.type,
        ⟨hexText_ne_nil _ _, hexText_hex _ _⟩, ⟨hexText_ne_nil _ _, hexText_hex _ _⟩, by
          rw [takeWhile_hexText]; exact hexText_ne_nil _ _⟩, ih]
      rw [takeWhile_hexText]
      simp only [natOfHex_hexText, List.filter_cons, hp, decide_true, if_true, List.map_cons, SecRow.sec]
    · rw [secWords_skip _ _ (by
        intro w1 w2 w3 w4 tl _ hc
        exact hp ((plainName_iff _).2 hc.1.2))]
      have hnext : ∀ y ys, rows.flatMap SecRow.words ++ after = y :: ys → y ∉ secTypes := by
        intro y ys he
        cases rows with
        | nil => simp at he; exact ha y (by rw [he]; simp)
        | cons r' rows' =>
          have hb := (hr r' (by simp)).before
          cases hb' : r'.before with
          | nil => exact absurd hb' hb.1
          | cons b bs =>
            rw [List.flatMap_cons, SecRow.words, hb'] at he
            simp only [List.cons_append, List.cons.injEq] at he
            rw [← he.1]
            exact hb.2 b (by simp [hb'])
      have := secWords_inert [hexText r.zeros.1 r.vaddr, hexText r.zeros.2.1 r.off, hexText r.zeros.2.2 r.size]
        (rows.flatMap SecRow.words ++ after) (by
          intro w hw'
          simp only [List.mem_cons, List.not_mem_nil, or_false] at hw'
          rcases hw' with rfl | rfl | rfl <;> exact hexText_not_type _ _) r.type (fun y ys he => .inl (hnext y ys he))
      simp only [List.cons_append, List.nil_append] at this
      rw [this, ih]
      simp only [List.filter_cons, hp, decide_false, Bool.false_eq_true, if_false]

theorem sec_mem_splitWs (s : Str) : ∀ w ∈ splitWs s, w ≠ [] := by
  have : ∀ (s cur : Str), ∀ w ∈ splitWsGo cur s, w ≠ [] := by
    intro s
    induction s with
    | nil =>
      intro cur w hw
      simp only [splitWsGo] at hw
      split at hw
      · cases hw
      · rename_i h
        simp only [List.mem_singleton] at hw
        subst hw
        simpa using h
    | cons c s ih =>
      intro cur w hw
      simp only [splitWsGo] at hw
      split at hw
      · split at hw
        · exact ih _ w hw
        · rename_i h
          rcases List.mem_cons.1 hw with rfl | hw
          · simpa using h
          · exact ih _ w hw
      · exact ih _ w hw
  exact this s []

theorem extractSections_rows (out : Str) (rows : List SecRow) (after : List Str) (hr : ∀ r ∈ rows, r.WF)
    (ha : ∀ w ∈ after, w ∉ secTypes) (hout : splitWs out = rows.flatMap SecRow.words ++ after) :
    extractSections out =
      ((rows.filter fun r => decide (PlainName r.name)).map SecRow.sec).foldl (fun d s => dset s.name s d) [] := by
  obtain ⟨ws, hws, he⟩ := extractSections_words out
  have hn : ∀ r ∈ rows, r.name ≠ [] := by
    intro r hr'
    apply sec_mem_splitWs out
    rw [hout]
    refine List.mem_append_left _ (List.mem_flatMap.2 ⟨r, hr', ?_⟩)
    simp [SecRow.words]
  rw [he]
  congr 1
  rcases hws with rfl | ⟨w, hw⟩
  · rw [hout, secWords_rows rows after hr hn ha]
  · rw [hout] at hw
    cases rows with
    | nil =>
      simp only [List.flatMap_nil, List.nil_append] at hw
      rw [secWords_none ws (fun x hx => ha x (by rw [← hw]; simp [hx]))]
      rfl
    | cons r rows =>
      have hb := (hr r (by simp)).before
      cases hb' : r.before with
      | nil => exact absurd hb' hb.1
      | cons b bs =>
        rw [← secWords_rows (r :: rows) after hr hn ha, List.flatMap_cons]
        have e : r.words = b :: (bs ++ [r.name, r.type, hexText r.zeros.1 r.vaddr, hexText r.zeros.2.1 r.off,
            hexText r.zeros.2.2 r.size]) := by rw [SecRow.words, hb']; rfl
        rw [List.flatMap_cons, e] at hw
        simp only [List.cons_append, List.cons.injEq] at hw
        rw [hw.2]
        rw [SecRow.words]
        simp only [List.append_assoc, List.cons_append, List.nil_append]
        rw [secWords_before r.before hb.2 _ _ (hr r (by simp)).type,
          secWords_before bs (fun x hx => hb.2 x (by simp [hb', hx])) _ _ (hr r (by simp)).type]

theorem foldSec_get (secs : List Section) (n : Str) :
    dget n (secs.foldl (fun d s => dset s.name s d) ([] : Dict Str Section)) =
      (secs.filter fun s => decide (s.name = n)).getLast? := by
  induction secs using List.reverseRecOn with
  | nil => rfl
  | append_singleton l a ih =>
    rw [List.foldl_append, List.foldl_cons, List.foldl_nil, dget_dset, List.filter_append]
    by_cases hn : n = a.name
    · simp [hn]
    · have hn2 : ¬ a.name = n := fun e => hn e.symm
      rw [if_neg hn, ih]
      simp [hn2]

theorem foldSec_nodup (secs : List Section) (d : Dict Str Section)
    (h : (d.map Prod.fst ++ secs.map Section.name).Nodup) :
    secs.foldl (fun d s => dset s.name s d) d = d ++ secs.map fun s => (s.name, s) := by
  induction secs generalizing d with
  | nil => simp
  | cons a l ih =>
    rw [List.foldl_cons, dset_of_not_mem, ih]
    · simp
    · simpa using h
    · intro hm
      rw [List.nodup_append] at h
      exact h.2.2 a.name hm a.name (by simp) rfl

end Verif
