import Verif.Lemmas.Locate
import Verif.Lemmas.Elf
/-! Lemmas for names in definitions, line adjustment and grepping. -/
set_option autoImplicit false

namespace Verif
open Spec

/-! ## words before a parenthesis -/

theorem splitWs_word (w b r : Str) (hw : Ident w) (hb : b ≠ []) (hb' : Blank b) : splitWs (w ++ (b ++ r)) = w :: splitWs r := by
  unfold splitWs
  rw [splitWsGo_word w _ [] fun c hc => isWord_not_space c (hw.2 c hc)]
  cases b with
  | nil => exact absurd rfl hb
  | cons c b =>
    have hne : (w.reverse ++ []).isEmpty = false := by
      obtain ⟨h, -⟩ := hw
      cases w with
      | nil => exact absurd rfl h
      | cons x xs => simp
    rw [List.cons_append]
    simp only [splitWsGo, hb' c (by simp), if_true, hne, Bool.false_eq_true, if_false]
    rw [splitWsGo_blanks b r fun x hx => hb' x (by simp [hx])]
    simp

theorem splitWs_last (w b : Str) (hw : Ident w) (hb : Blank b) : splitWs (w ++ b) = [w] := by
  by_cases hne : b = []
  · subst hne
    unfold splitWs
    rw [splitWsGo_word w _ [] fun c hc => isWord_not_space c (hw.2 c hc)]
    obtain ⟨h, -⟩ := hw
    simp [splitWsGo, h]
  · have := splitWs_word w b [] hw hne hb
    rw [List.append_nil] at this
    rw [this]; rfl

theorem ident_append {a b : Str} (ha : Ident a) (hb : Ident b) : Ident (a ++ b) :=
  ⟨by simp [ha.1], fun c hc => (List.mem_append.1 hc).elim (ha.2 c) (hb.2 c)⟩

def NoParen (s : Str) : Prop := ∀ c ∈ s, c ≠ '('

theorem ident_noParen {s : Str} (h : Ident s) : NoParen s := by
  intro c hc he; subst he
  exact absurd (h.2 _ hc) (by decide)

theorem blank_noParen {s : Str} (h : Blank s) : NoParen s := by
  intro c hc he; subst he
  exact absurd (h _ hc) (by decide)

theorem noParen_append {a b : Str} (ha : NoParen a) (hb : NoParen b) : NoParen (a ++ b) :=
  fun c hc => (List.mem_append.1 hc).elim (ha c) (hb c)

theorem paren_split {a b r s : Str} (ha : NoParen a) (hb : NoParen b) (h : a ++ '(' :: r = b ++ '(' :: s) : a = b ∧ r = s := by
  have h1 := congrArg (List.takeWhile fun c => c != '(') h
  have h2 := congrArg (List.dropWhile fun c => c != '(') h
  have e1 : ∀ t : Str, NoParen t → ∀ u : Str, (t ++ '(' :: u).takeWhile (fun c => c != '(') = t := fun t ht u =>
    takeWhile_append_stop _ _ _ (by simpa using fun c hc => ht c hc) (by rintro x xs h; cases h; rfl)
  have e2 : ∀ t : Str, NoParen t → ∀ u : Str, (t ++ '(' :: u).dropWhile (fun c => c != '(') = '(' :: u := fun t ht u =>
    dropWhile_append_stop _ _ _ (by simpa using fun c hc => ht c hc) (by rintro x xs h; cases h; rfl)
  rw [e1 _ ha, e1 _ hb] at h1
  rw [e2 _ ha, e2 _ hb] at h2
  exact ⟨h1, by simpa using h2⟩

theorem ident_asmlinkage : Ident cs!"asmlinkage" := ⟨by decide, by decide⟩
theorem ident_unsigned : Ident cs!"unsigned" := ⟨by decide, by decide⟩

theorem asmHead_noParen {h : Str} (hh : AsmHead h) : NoParen h := by
  obtain ⟨ws1, uns, ty, ws2, h1, h2, h3, h4, rfl⟩ := hh
  have hu : NoParen uns := by
    rcases h2 with rfl | ⟨ws, -, hws, rfl⟩
    · intro c hc; simp at hc
    · exact noParen_append (ident_noParen ident_unsigned) (blank_noParen hws)
  exact noParen_append (noParen_append (noParen_append (noParen_append (ident_noParen ident_asmlinkage) (blank_noParen h1)) hu)
    (ident_noParen h3)) (blank_noParen h4)

/-- the words of a function head as the pattern reads it -/
theorem asmHead_words (head fn ws : Str) (hh : AsmHead head) (hfn : Ident fn) (hws : Blank ws) :
    (∃ w r, splitWs (head ++ fn ++ ws) = w :: r ∧ w.length > 10) ∨
    (∃ ty, splitWs (head ++ fn ++ ws) = [cs!"asmlinkage", ty, fn]) ∨
    (∃ x, splitWs (head ++ fn ++ ws) = [cs!"asmlinkage", x]) ∨
    (∃ ty, splitWs (head ++ fn ++ ws) = [cs!"asmlinkage", cs!"unsigned", ty, fn]) ∨
    (∃ x, splitWs (head ++ fn ++ ws) = [cs!"asmlinkage", cs!"unsigned", x]) := by
  obtain ⟨ws1, uns, ty, ws2, h1, h2, h3, h4, rfl⟩ := hh
  by_cases hw1 : ws1 = []
  · -- glued to the first word
    left
    subst hw1
    rcases h2 with rfl | ⟨wsu, hne, hwsu, rfl⟩
    · by_cases hw2 : ws2 = []
      · subst hw2
        refine ⟨cs!"asmlinkage" ++ ty ++ fn, [], ?_, ?_⟩
        · have := splitWs_last (cs!"asmlinkage" ++ ty ++ fn) ws (ident_append (ident_append ident_asmlinkage h3) hfn) hws
          simpa using this
        · have := List.length_pos_iff.2 h3.1
          simp; omega
      · refine ⟨cs!"asmlinkage" ++ ty, [fn], ?_, ?_⟩
        · have := splitWs_word (cs!"asmlinkage" ++ ty) ws2 (fn ++ ws) (ident_append ident_asmlinkage h3) hw2 h4
          rw [splitWs_last fn ws hfn hws] at this
          simpa using this
        · have := List.length_pos_iff.2 h3.1
          simp; omega
    · refine ⟨cs!"asmlinkage" ++ cs!"unsigned", splitWs (ty ++ ws2 ++ fn ++ ws), ?_, by decide⟩
      have := splitWs_word (cs!"asmlinkage" ++ cs!"unsigned") wsu (ty ++ ws2 ++ fn ++ ws) (ident_append ident_asmlinkage ident_unsigned) hne hwsu
      simpa using this
  · right
    rcases h2 with rfl | ⟨wsu, hne, hwsu, rfl⟩
    · have e0 := splitWs_word cs!"asmlinkage" ws1 (ty ++ ws2 ++ fn ++ ws) ident_asmlinkage hw1 h1
      by_cases hw2 : ws2 = []
      · subst hw2
        right; left
        refine ⟨ty ++ fn, ?_⟩
        have := splitWs_last (ty ++ fn) ws (ident_append h3 hfn) hws
        rw [List.append_nil, this] at e0
        simpa using e0
      · left
        refine ⟨ty, ?_⟩
        have := splitWs_word ty ws2 (fn ++ ws) h3 hw2 h4
        rw [splitWs_last fn ws hfn hws] at this
        rw [show ty ++ ws2 ++ fn ++ ws = ty ++ (ws2 ++ (fn ++ ws)) by simp, this] at e0
        simpa using e0
    · have e0 := splitWs_word cs!"asmlinkage" ws1 (cs!"unsigned" ++ (wsu ++ (ty ++ ws2 ++ fn ++ ws))) ident_asmlinkage hw1 h1
      rw [splitWs_word cs!"unsigned" wsu _ ident_unsigned hne hwsu] at e0
      by_cases hw2 : ws2 = []
      · subst hw2
        right; right; right
        refine ⟨ty ++ fn, ?_⟩
        have := splitWs_last (ty ++ fn) ws (ident_append h3 hfn) hws
        rw [List.append_nil, this] at e0
        simpa using e0
      · right; right; left
        refine ⟨ty, ?_⟩
        have := splitWs_word ty ws2 (fn ++ ws) h3 hw2 h4
        rw [splitWs_last fn ws hfn hws] at this
        rw [show ty ++ ws2 ++ fn ++ ws = ty ++ (ws2 ++ (fn ++ ws)) by simp, this] at e0
        simpa using e0

theorem names_ident (a : Arch) (name fn : Str) (h : Ident name) (hfn : fn ∈ tightNames name ++ oddNames a name) : Ident fn := by
  have hp : ∀ p : Str, (∀ c ∈ p, isWord c = true) → Ident (p ++ name) := fun p hp =>
    ⟨by simp [h.1], fun c hc => (List.mem_append.1 hc).elim (hp c) (h.2 c)⟩
  rcases List.mem_append.1 hfn with h1 | h1
  · simp only [tightNames, List.mem_cons, List.not_mem_nil, or_false] at h1
    rcases h1 with rfl | rfl <;> exact hp _ (by decide)
  · rcases List.mem_append.1 h1 with h2 | h2
    · split at h2
      · simp only [List.mem_cons, List.not_mem_nil, or_false] at h2; exact h2 ▸ h
      · simp at h2
    · unfold archNames at h2
      split at h2
      · split at h2
        · split at h2 <;> simp only [List.mem_cons, List.not_mem_nil, or_false] at h2 <;> subst h2
          · exact h
          · exact hp _ (by decide)
        · simp at h2
      · split at h2
        · split at h2 <;> simp only [List.mem_cons, List.not_mem_nil, or_false] at h2 <;> subst h2
          · exact h
          · exact hp _ (by decide)
        · simp at h2
      · rcases List.mem_append.1 h2 with h3 | h3
        · split at h3
          · simp only [List.mem_cons, List.not_mem_nil, or_false] at h3; exact h3 ▸ h
          · simp only [List.mem_cons, List.not_mem_nil, or_false] at h3
            rcases h3 with rfl | rfl <;> exact hp _ (by decide)
        · split at h3
          · split at h3 <;> simp only [List.mem_cons, List.not_mem_nil, or_false] at h3 <;> subst h3
            · exact h
            · exact hp _ (by decide)
          · simp at h3
      · simp at h2

/-! ## adjust_line -/

theorem brstrip_eq (c : Char) (hc : isBSpace c = false) (l : Str) : brstrip l = [c] ↔ OnlyChar c l := by
  unfold brstrip OnlyChar
  constructor
  · intro h
    have h1 : l.reverse.dropWhile isBSpace = [c] := by rw [← List.reverse_reverse (List.dropWhile _ _), h]; rfl
    have h2 := List.takeWhile_append_dropWhile (p := isBSpace) (l := l.reverse)
    rw [h1] at h2
    refine ⟨(l.reverse.takeWhile isBSpace).reverse, ?_, ?_⟩
    · have := congrArg List.reverse h2
      simpa using this.symm
    · intro x hx
      have : x ∈ l.reverse.takeWhile isBSpace := by simpa using hx
      exact of_takeWhile _ _ _ this
  · rintro ⟨ws, rfl, hw⟩
    rw [List.reverse_cons, dropWhile_append_stop isBSpace ws.reverse [c] (by simpa using hw) (by rintro x xs h; cases h; exact hc)]
    rfl
where
  of_takeWhile (p : Char → Bool) (l : Str) (x : Char) (h : x ∈ l.takeWhile p) : p x = true := by
    induction l with
    | nil => simp at h
    | cons y ys ih =>
      rw [List.takeWhile_cons] at h
      split at h
      · next hy =>
        rcases List.mem_cons.1 h with rfl | h
        · exact hy
        · exact ih h
      · simp at h

theorem signatureAbove_spec (lines : List Str) (b : Nat) (hb : b ≤ lines.length) :
    (∃ j l, j < b ∧ lines[j]? = some l ∧ SigLine l ∧ (∀ i l', j < i → i < b → lines[i]? = some l' → ¬ SigLine l') ∧
      signatureAbove lines b = some (j + 1)) ∨
    ((∀ i l', i < b → lines[i]? = some l' → ¬ SigLine l') ∧ signatureAbove lines b = none) := by
  induction b with
  | zero => right; exact ⟨by simp, rfl⟩
  | succ b ih =>
    obtain ⟨l, hl⟩ : ∃ l, lines[b]? = some l := ⟨lines[b], List.getElem?_eq_getElem (by omega)⟩
    have step : ¬ SigLine l → signatureAbove lines (b + 1) = signatureAbove lines b →
        (∃ j l, j < b + 1 ∧ lines[j]? = some l ∧ SigLine l ∧ (∀ i l', j < i → i < b + 1 → lines[i]? = some l' → ¬ SigLine l') ∧
          signatureAbove lines (b + 1) = some (j + 1)) ∨
        ((∀ i l', i < b + 1 → lines[i]? = some l' → ¬ SigLine l') ∧ signatureAbove lines (b + 1) = none) := by
      intro hn he
      rcases ih (by omega) with ⟨j, m, h1, h2, h3, h4, h5⟩ | ⟨h1, h2⟩
      · refine .inl ⟨j, m, by omega, h2, h3, ?_, by rw [he, h5]⟩
        intro i l' hi hi' hl'
        by_cases hib : i = b
        · subst hib; rw [hl] at hl'; cases hl'; exact hn
        · exact h4 i l' hi (by omega) hl'
      · refine .inr ⟨?_, by rw [he, h2]⟩
        intro i l' hi hl'
        by_cases hib : i = b
        · subst hib; rw [hl] at hl'; cases hl'; exact hn
        · exact h1 i l' (by omega) hl'
    have done : SigLine l → signatureAbove lines (b + 1) = some (b + 1) → _ := fun hs he =>
      (Or.inl ⟨b, l, by omega, hl, hs, by intros; omega, he⟩ :
        (∃ j l, j < b + 1 ∧ lines[j]? = some l ∧ SigLine l ∧ (∀ i l', j < i → i < b + 1 → lines[i]? = some l' → ¬ SigLine l') ∧
          signatureAbove lines (b + 1) = some (j + 1)) ∨
        ((∀ i l', i < b + 1 → lines[i]? = some l' → ¬ SigLine l') ∧ signatureAbove lines (b + 1) = none))
    cases l with
    | nil => exact done (by intro c cs h; cases h) (by simp [signatureAbove, hl])
    | cons c cs =>
      by_cases h1 : isBSpace c = true
      · exact step (fun hs => by have := (hs c cs rfl).1; rw [h1] at this; cases this) (by simp [signatureAbove, hl, h1])
      · by_cases h2 : c = '#'
        · exact step (fun hs => (hs c cs rfl).2 h2) (by simp [signatureAbove, hl, h1, h2])
        · refine done ?_ (by simp [signatureAbove, hl, h1, h2])
          intro x xs h
          cases h
          exact ⟨by simpa using h1, h2⟩

theorem bodyAt_lt {lines : List Str} {line b : Nat} (h : BodyAt lines line b) : b < lines.length := by
  obtain ⟨-, ⟨l, hl, -⟩, -⟩ := h
  exact (List.getElem?_eq_some_iff.1 hl).1

/-- the search for the opening brace -/
theorem adjustGo_spec (lines : List Str) (line : Nat) (n : Nat) (hn : n ≤ line) (hlen : line ≤ lines.length)
    (hab : ∀ i, n ≤ i → i < line → ∀ l, lines[i]? = some l → ¬ OnlyChar '{' l ∧ (i < line - 1 → ¬ OnlyChar '}' l)) :
    (∃ b, BodyAt lines line b ∧ b < n ∧ adjustGo lines line n = .ok ((signatureAbove lines b).getD (b + 1))) ∨
    ((∀ b, ¬ BodyAt lines line b) ∧ adjustGo lines line n = .ok line) := by
  induction n with
  | zero =>
    refine .inr ⟨?_, rfl⟩
    rintro b ⟨h1, ⟨l, hl, ho⟩, -⟩
    exact (hab b (by omega) h1 l hl).1 ho
  | succ n ih =>
    obtain ⟨l, hl⟩ : ∃ l, lines[n]? = some l := ⟨lines[n], List.getElem?_eq_getElem (by omega)⟩
    by_cases h1 : n < line - 1 ∧ brstrip l = cs!"}"
    · refine .inr ⟨?_, by simp only [adjustGo, hl]; rw [if_pos h1]⟩
      have hc : OnlyChar '}' l := (brstrip_eq '}' (by decide) l).1 h1.2
      rintro b ⟨hb1, ⟨m, hm, ho⟩, hb3⟩
      rcases Nat.lt_trichotomy b n with hlt | rfl | hgt
      · exact (hb3 n hlt (by omega) l hl).2 h1.1 hc
      · rw [hl] at hm; cases hm
        obtain ⟨w1, e1, -⟩ := hc
        obtain ⟨w2, e2, -⟩ := ho
        rw [e1] at e2; simp at e2
      · exact (hab b (by omega) hb1 m hm).1 ho
    · by_cases h2 : brstrip l = cs!"{"
      · refine .inl ⟨n, ⟨by omega, ⟨l, hl, (brstrip_eq '{' (by decide) l).1 h2⟩, fun i h1 h2 => hab i h1 h2⟩, by omega, ?_⟩
        simp only [adjustGo, hl]
        rw [if_neg h1, if_pos h2]
        cases signatureAbove lines n <;> rfl
      · have he : adjustGo lines line (n + 1) = adjustGo lines line n := by
          simp only [adjustGo, hl]
          rw [if_neg h1, if_neg h2]
        rw [he]
        rcases ih (by omega) (by
            intro i hi hi' m hm
            by_cases hin : i = n
            · subst hin; rw [hl] at hm; cases hm
              refine ⟨fun ho => h2 ((brstrip_eq '{' (by decide) l).2 ho), fun hlt ho => h1 ⟨hlt, (brstrip_eq '}' (by decide) l).2 ho⟩⟩
            · exact hab i (by omega) hi' m hm) with ⟨b, hb, hbn, e⟩ | h
        · exact .inl ⟨b, hb, by omega, e⟩
        · exact .inr h

theorem bodyAt_unique (lines : List Str) (line b b' : Nat) (h : BodyAt lines line b) (h' : BodyAt lines line b') : b = b' := by
  rcases Nat.lt_trichotomy b b' with hlt | e | hlt
  · obtain ⟨l, hl, ho⟩ := h'.2.1
    exact absurd ho (h.2.2 b' hlt h'.1 l hl).1
  · exact e
  · obtain ⟨l, hl, ho⟩ := h.2.1
    exact absurd ho (h'.2.2 b hlt h.1 l hl).1

theorem adjustGo_short (lines : List Str) (line : Nat) (h : lines.length < line) : adjustGo lines line line = .error (.exit 1) := by
  cases line with
  | zero => omega
  | succ n => simp only [adjustGo, List.getElem?_eq_none (show lines.length ≤ n by omega)]

/-! ## grep: assigning rows to syscalls -/

theorem takeMatch_none (a : Arch) (row : Str) (l : List Ref) (h : takeMatch a row l = none) :
    ∀ r ∈ l, ((syscallGrepRe a r.2.origname).search row).isSome = false := by
  induction l with
  | nil => simp
  | cons x xs ih =>
    simp only [takeMatch] at h
    split at h
    · cases h
    · next hx =>
      split at h
      · next hn =>
        intro r hr
        rcases List.mem_cons.1 hr with rfl | hr
        · simpa using hx
        · exact ih hn r hr
      · cases h

theorem takeMatch_some (a : Arch) (row : Str) (l : List Ref) (r : Ref) (rest : List Ref) (h : takeMatch a row l = some (r, rest)) :
    ((syscallGrepRe a r.2.origname).search row).isSome = true := by
  induction l generalizing r rest with
  | nil => cases h
  | cons x xs ih =>
    simp only [takeMatch] at h
    split at h
    · next hx => cases h; exact hx
    · split at h
      · cases h
      · next y rest' hy => cases h; exact ih _ _ hy

theorem grepMatch_assign (a : Arch) (kdir : Path) (rows : List Str) :
    ∀ (todo : List Ref) (out : List (Ref × Option (Path × Nat))), todo.Nodup → grepMatch a kdir rows todo = .ok out →
    ∃ asg : Nat → Option Ref,
      (∀ i r, asg i = some r → r ∈ todo ∧ ∃ row, rows[i]? = some row ∧ ((syscallGrepRe a r.2.origname).search row).isSome = true) ∧
      (∀ i j r, asg i = some r → asg j = some r → i = j) ∧
      (∀ r loc, (r, some loc) ∈ out ↔ ∃ i row, asg i = some r ∧ rows[i]? = some row ∧ rowLocation kdir row = .ok loc) ∧
      (∀ r, (r, none) ∈ out ↔ r ∈ todo ∧ ∀ i, asg i ≠ some r) ∧
      (∀ i row r, rows[i]? = some row → r ∈ todo → ((syscallGrepRe a r.2.origname).search row).isSome = true →
        (∃ r', asg i = some r') ∨ ∃ j, j < i ∧ asg j = some r) := by
  induction rows with
  | nil =>
    intro todo out hnd h
    cases h
    refine ⟨fun _ => none, by simp, by simp, ?_, ?_, by simp⟩
    · intro r loc; simp
    · intro r; simp
  | cons row rows ih =>
    intro todo out hnd h
    simp only [grepMatch] at h
    split at h
    · next hn =>
      obtain ⟨asg, h1, h2, h3, h4, h5⟩ := ih _ _ hnd h
      have hno := takeMatch_none _ _ _ hn
      refine ⟨fun i => match i with | 0 => none | i + 1 => asg i, ?_, ?_, ?_, ?_, ?_⟩
      · intro i r hi
        cases i with
        | zero => cases hi
        | succ i => exact h1 i r hi
      · intro i j r hi hj
        cases i with
        | zero => cases hi
        | succ i =>
          cases j with
          | zero => cases hj
          | succ j => rw [h2 i j r hi hj]
      · intro r loc
        rw [h3]
        constructor
        · rintro ⟨i, rw', e1, e2, e3⟩; exact ⟨i + 1, rw', e1, by simpa using e2, e3⟩
        · rintro ⟨i, rw', e1, e2, e3⟩
          cases i with
          | zero => cases e1
          | succ i => exact ⟨i, rw', e1, by simpa using e2, e3⟩
      · intro r
        rw [h4]
        refine and_congr_right fun _ => ⟨fun hh i => ?_, fun hh i => hh (i + 1)⟩
        cases i with
        | zero => simp
        | succ i => exact hh i
      · intro i row' r hrow hr hm
        cases i with
        | zero =>
          simp only [List.getElem?_cons_zero, Option.some.injEq] at hrow
          subst hrow
          rw [hno r hr] at hm; cases hm
        | succ i =>
          rcases h5 i row' r (by simpa using hrow) hr hm with h | ⟨j, hj, e⟩
          · exact .inl h
          · exact .inr ⟨j + 1, by omega, e⟩
    · next r0 rest hm =>
      simp only [bind, Except.bind] at h
      split at h
      · cases h
      next loc0 hloc =>
      split at h
      · cases h
      next out' hout =>
      cases h
      have hperm := takeMatch_perm _ _ _ _ _ hm
      have hmatch := takeMatch_some _ _ _ _ _ hm
      have hnd' : (r0 :: rest).Nodup := hperm.nodup_iff.2 hnd
      obtain ⟨hr0, hnd''⟩ := List.nodup_cons.1 hnd'
      obtain ⟨asg, h1, h2, h3, h4, h5⟩ := ih _ _ hnd'' hout
      have hmem : ∀ r, r ∈ todo ↔ r = r0 ∨ r ∈ rest := fun r => by rw [← hperm.mem_iff]; simp
      refine ⟨fun i => match i with | 0 => some r0 | i + 1 => asg i, ?_, ?_, ?_, ?_, ?_⟩
      · intro i r hi
        cases i with
        | zero => cases hi; exact ⟨(hmem _).2 (.inl rfl), row, rfl, hmatch⟩
        | succ i =>
          obtain ⟨e1, e2⟩ := h1 i r hi
          exact ⟨(hmem _).2 (.inr e1), by simpa using e2⟩
      · intro i j r hi hj
        cases i with
        | zero =>
          cases hi
          cases j with
          | zero => rfl
          | succ j => exact absurd (h1 j r0 hj).1 hr0
        | succ i =>
          cases j with
          | zero => cases hj; exact absurd (h1 i r0 hi).1 hr0
          | succ j => rw [h2 i j r hi hj]
      · intro r loc
        rw [List.mem_cons, h3]
        constructor
        · rintro (e | ⟨i, rw', e1, e2, e3⟩)
          · cases e; exact ⟨0, row, rfl, rfl, hloc⟩
          · exact ⟨i + 1, rw', e1, by simpa using e2, e3⟩
        · rintro ⟨i, rw', e1, e2, e3⟩
          cases i with
          | zero =>
            left
            cases e1
            simp only [List.getElem?_cons_zero, Option.some.injEq] at e2
            subst e2
            rw [hloc] at e3; cases e3; rfl
          | succ i => exact .inr ⟨i, rw', e1, by simpa using e2, e3⟩
      · intro r
        rw [List.mem_cons, h4]
        constructor
        · rintro (e | ⟨e1, e2⟩)
          · cases e
          · refine ⟨(hmem _).2 (.inr e1), fun i => ?_⟩
            cases i with
            | zero => intro e; cases e; exact hr0 e1
            | succ i => exact e2 i
        · rintro ⟨e1, e2⟩
          right
          refine ⟨((hmem _).1 e1).resolve_left ?_, fun i => e2 (i + 1)⟩
          rintro rfl
          exact e2 0 rfl
      · intro i row' r hrow hr hmt
        cases i with
        | zero => exact .inl ⟨r0, rfl⟩
        | succ i =>
          rcases (hmem _).1 hr with rfl | hr'
          · exact .inr ⟨0, by omega, rfl⟩
          · rcases h5 i row' r (by simpa using hrow) hr' hmt with h | ⟨j, hj, e⟩
            · exact .inl h
            · exact .inr ⟨j + 1, by omega, e⟩

/-! ## grep: walking the tree -/

theorem grepFile_mem (exp : Re) (rel : List Str) (lines : List Str) (row : Str) :
    row ∈ grepFile exp rel lines ↔ ∃ i l, lines[i]? = some l ∧ (exp.search l).isSome = true ∧
      row = Path.str ⟨false, rel⟩ ++ cs!":" ++ natRepr (i + 1) ++ cs!":" ++ brstrip l := by
  have hnum : ∀ (ls : List Str) (n k : Nat) (l : Str), (k, l) ∈ numberFrom n ls ↔ ∃ i, k = n + i ∧ ls[i]? = some l := by
    intro ls
    induction ls with
    | nil => intro n k l; simp [numberFrom]
    | cons x xs ih =>
      intro n k l
      simp only [numberFrom, List.mem_cons, ih]
      constructor
      · rintro (e | ⟨i, e1, e2⟩)
        · cases e; exact ⟨0, rfl, rfl⟩
        · exact ⟨i + 1, by omega, by simpa using e2⟩
      · rintro ⟨i, e1, e2⟩
        cases i with
        | zero => left; simp at e2; rw [e1, e2]; rfl
        | succ i => right; exact ⟨i, by omega, by simpa using e2⟩
  unfold grepFile
  rw [List.mem_filterMap]
  constructor
  · rintro ⟨⟨k, l⟩, hm, h⟩
    obtain ⟨i, rfl, hl⟩ := (hnum _ _ _ _).1 hm
    split at h
    · next hs => cases h; exact ⟨i, l, hl, hs, by rw [Nat.add_comm 1 i]⟩
    · cases h
  · rintro ⟨i, l, hl, hs, rfl⟩
    refine ⟨(1 + i, l), (hnum _ _ _ _).2 ⟨i, rfl, hl⟩, ?_⟩
    simp only [hs, if_true, Nat.add_comm 1 i]

mutual
theorem grepDir_mem (exp : Re) (ex : List Str → Bool) (rel : List Str) (children : List (Str × Node)) (row : Str) :
    row ∈ grepDir exp ex rel children ↔ ∃ path lines, At children path (.file lines) ∧ (∀ c ∈ path, isHidden c = false) ∧
      (∃ last, path.getLast? = some last ∧ isCFile last = true) ∧
      (∀ k, 0 < k → k < path.length → ex (rel ++ path.take k) = false) ∧ row ∈ grepFile exp (rel ++ path) lines := by
  match children with
  | [] =>
    simp only [grepDir, List.not_mem_nil, false_iff]
    rintro ⟨path, lines, hat, -⟩
    cases hat with
    | here _ _ _ h => cases h
    | inside _ _ _ _ _ h => cases h
  | (name, node) :: rest =>
    rw [grepDir, List.mem_append, grepDir_mem exp ex rel rest row]
    have hfirst : (row ∈ if isHidden name = true then [] else grepNode exp ex (rel ++ [name]) (isCFile name) node) ↔
        isHidden name = false ∧ row ∈ grepNode exp ex (rel ++ [name]) (isCFile name) node := by
      split <;> simp_all
    rw [hfirst, grepNode_mem exp ex (rel ++ [name]) (isCFile name) node row]
    constructor
    · rintro (⟨hh, h⟩ | ⟨path, lines, hat, h⟩)
      · rcases h with ⟨lines, rfl, hc, hr⟩ | ⟨sub, rfl, hex, path, lines, hat, h1, h2, h3, h4⟩
        · exact ⟨[name], lines, .here _ _ _ (by simp), by simpa using hh, ⟨name, rfl, hc⟩, by
            intro k h0 h1; simp at h1; omega, hr⟩
        · refine ⟨name :: path, lines, .inside _ _ sub _ _ (by simp) hat, ?_, ?_, ?_, by simpa using h4⟩
          · intro c hc
            rcases List.mem_cons.1 hc with rfl | hc
            · exact hh
            · exact h1 c hc
          · obtain ⟨last, e1, e2⟩ := h2
            refine ⟨last, ?_, e2⟩
            rw [List.getLast?_cons, e1]; rfl
          · intro k hk hk'
            cases k with
            | zero => omega
            | succ k =>
              by_cases hk0 : k = 0
              · subst hk0; simpa using hex
              · have := h3 k (by omega) (by simpa using hk')
                simpa using this
      · refine ⟨path, lines, ?_, h⟩
        cases hat with
        | here _ _ _ hm => exact .here _ _ _ (by simp [hm])
        | inside _ _ sub _ _ hm ha => exact .inside _ _ sub _ _ (by simp [hm]) ha
    · rintro ⟨path, lines, hat, h1, h2, h3, h4⟩
      cases hat with
      | here _ nm _ hm =>
        rcases List.mem_cons.1 hm with e | hm
        · cases e
          left
          refine ⟨h1 name (by simp), .inl ⟨lines, rfl, ?_, h4⟩⟩
          obtain ⟨last, e1, e2⟩ := h2
          simp at e1; rw [e1]; exact e2
        · exact .inr ⟨[nm], lines, .here _ _ _ hm, h1, h2, h3, h4⟩
      | inside _ nm sub p _ hm ha =>
        rcases List.mem_cons.1 hm with e | hm
        · cases e
          left
          have hp : 0 < p.length := by
            cases ha <;> simp
          refine ⟨h1 name (by simp), .inr ⟨sub, rfl, by simpa using h3 1 (by omega) (by simp; omega), p, lines, ha,
            fun c hc => h1 c (by simp [hc]), ?_, ?_, by simpa using h4⟩⟩
          · obtain ⟨last, e1, e2⟩ := h2
            refine ⟨last, ?_, e2⟩
            rw [List.getLast?_cons] at e1
            cases hl : p.getLast? with
            | none => rw [List.getLast?_eq_none_iff] at hl; subst hl; simp at hp
            | some z => rw [hl] at e1; simpa using e1
          · intro k hk hk'
            have := h3 (k + 1) (by omega) (by simpa using hk')
            simpa using this
        · exact .inr ⟨nm :: p, lines, .inside _ _ sub _ _ hm ha, h1, h2, h3, h4⟩
theorem grepNode_mem (exp : Re) (ex : List Str → Bool) (rel : List Str) (isC : Bool) (node : Node) (row : Str) :
    row ∈ grepNode exp ex rel isC node ↔
      (∃ lines, node = .file lines ∧ isC = true ∧ row ∈ grepFile exp rel lines) ∨
      (∃ sub, node = .dir sub ∧ ex rel = false ∧ ∃ path lines, At sub path (.file lines) ∧ (∀ c ∈ path, isHidden c = false) ∧
        (∃ last, path.getLast? = some last ∧ isCFile last = true) ∧
        (∀ k, 0 < k → k < path.length → ex (rel ++ path.take k) = false) ∧ row ∈ grepFile exp (rel ++ path) lines) := by
  match node with
  | .file lines =>
    simp only [grepNode]
    cases isC <;> simp
  | .dir sub =>
    simp only [grepNode]
    have hd := grepDir_mem exp ex rel sub row
    cases hex : ex rel
    · simp only [Bool.false_eq_true, if_false]
      rw [hd]
      constructor
      · intro h; exact .inr ⟨sub, rfl, trivial, h⟩
      · rintro (⟨_, h, _⟩ | ⟨s, h, -, h'⟩)
        · cases h
        · cases h; exact h'
    · simp
  | .other => simp [grepNode]
end

end Verif
