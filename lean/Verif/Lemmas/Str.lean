import Verif.Lemmas.Py
/-! Lemmas on the string operations: replace, split, strip, join. -/
set_option autoImplicit false

namespace Verif

/-! ## strip -/

theorem lstrip_append_spaces (a b : Str) (h : ∀ c ∈ a, isSpace c = true) : lstrip (a ++ b) = lstrip b := by
  unfold lstrip
  induction a with
  | nil => rfl
  | cons x a ih =>
    rw [List.cons_append, List.dropWhile_cons]
    simp only [h x (by simp), if_true]
    exact ih fun c hc => h c (by simp [hc])

theorem lstrip_of_head (c : Char) (s : Str) (h : isSpace c = false) : lstrip (c :: s) = c :: s := by
  simp [lstrip, List.dropWhile_cons, h]

theorem rstrip_append_spaces (a b : Str) (h : ∀ c ∈ b, isSpace c = true) : rstrip (a ++ b) = rstrip a := by
  unfold rstrip
  rw [List.reverse_append]
  have := lstrip_append_spaces b.reverse a.reverse (fun c hc => h c (by simpa using hc))
  unfold lstrip at this
  rw [this]

theorem rstrip_of_last (s : Str) (c : Char) (h : isSpace c = false) : rstrip (s ++ [c]) = s ++ [c] := by
  simp [rstrip, List.dropWhile_cons, h]

theorem lstrip_all_space (s : Str) (h : ∀ c ∈ s, isSpace c = true) : lstrip s = [] := by
  have := lstrip_append_spaces s [] h
  simpa [lstrip] using this

@[simp] theorem strip_nil : strip [] = [] := rfl

/-- no leading and no trailing blank -/
def Trimmed (s : Str) : Prop := (∀ c, s.head? = some c → isSpace c = false) ∧ (∀ c, s.getLast? = some c → isSpace c = false)

theorem trimmed_nil : Trimmed [] := by simp [Trimmed]

theorem strip_trimmed_core {s : Str} (h : Trimmed s) : strip s = s := by
  unfold strip
  have h1 : lstrip s = s := by
    cases s with
    | nil => rfl
    | cons c s => exact lstrip_of_head c s (h.1 c rfl)
  rw [h1]
  rcases List.eq_nil_or_concat s with rfl | ⟨t, c, rfl⟩
  · rfl
  · rw [List.concat_eq_append] at h ⊢
    exact rstrip_of_last t c (h.2 c (by simp))

theorem strip_surround (a s b : Str) (ha : ∀ c ∈ a, isSpace c = true) (hb : ∀ c ∈ b, isSpace c = true)
    (h : Trimmed s) : strip (a ++ s ++ b) = s := by
  cases s with
  | nil =>
    simp only [List.append_nil]
    unfold strip
    rw [lstrip_all_space _ (by
      intro c hc
      rcases List.mem_append.1 hc with hc | hc
      · exact ha c hc
      · exact hb c hc)]
    rfl
  | cons c t =>
    unfold strip
    rw [List.append_assoc, lstrip_append_spaces _ _ ha]
    rw [List.cons_append, lstrip_of_head _ _ (h.1 c rfl), ← List.cons_append, rstrip_append_spaces _ _ hb]
    have := strip_trimmed_core h
    unfold strip at this
    rwa [lstrip_of_head _ _ (h.1 c rfl)] at this

/-- every string is blanks, its stripped text, blanks -/
theorem strip_decomp (s : Str) : ∃ a b, s = a ++ strip s ++ b ∧ (∀ c ∈ a, isSpace c = true) ∧
    (∀ c ∈ b, isSpace c = true) ∧ Trimmed (strip s) := by
  have h1 : s = s.takeWhile isSpace ++ lstrip s := (List.takeWhile_append_dropWhile).symm
  have h2 : lstrip s = rstrip (lstrip s) ++ ((lstrip s).reverse.takeWhile isSpace).reverse := by
    unfold rstrip
    rw [← List.reverse_append, List.takeWhile_append_dropWhile, List.reverse_reverse]
  refine ⟨s.takeWhile isSpace, ((lstrip s).reverse.takeWhile isSpace).reverse, ?_, ?_, ?_, ?_, ?_⟩
  · unfold strip
    rw [List.append_assoc, ← h2, ← h1]
  · intro c hc; exact List.all_eq_true.1 (List.all_takeWhile (p := isSpace)) c hc
  · intro c hc; exact List.all_eq_true.1 (List.all_takeWhile (p := isSpace)) c (List.mem_reverse.1 hc)
  · intro c hc
    unfold strip at hc
    have hl : (lstrip s).head? = some c := by
      rw [h2, List.head?_append, hc]; rfl
    unfold lstrip at hl
    have h := List.head?_dropWhile_not isSpace s
    rw [hl] at h
    simpa using h
  · intro c hc
    unfold strip rstrip at hc
    rw [List.getLast?_reverse] at hc
    have h := List.head?_dropWhile_not isSpace (lstrip s).reverse
    rw [hc] at h
    simpa using h

theorem strip_lstrip (s : Str) : strip (lstrip s) = strip s := by
  unfold strip
  have : lstrip (lstrip s) = lstrip s := by
    cases h : lstrip s with
    | nil => rfl
    | cons c t =>
      have hh := List.head?_dropWhile_not isSpace s
      unfold lstrip at h
      rw [h] at hh
      exact lstrip_of_head c t (by simpa using hh)
  rw [this]

/-! ## replace -/

theorem replaceGo_skip (old new : Str) (n : Nat) (s : Str) :
    replaceGo old new n s = replaceGo old new 0 (s.drop n) := by
  induction n generalizing s with
  | zero => rfl
  | succ n ih =>
    cases s with
    | nil => simp [replaceGo]
    | cons c cs => simp only [replaceGo, List.drop_succ_cons]; exact ih cs

@[simp] theorem replaceAll_nil (old new : Str) : replaceAll [] old new = [] := rfl

theorem replaceAll_match (old new s : Str) (hne : old ≠ []) :
    replaceAll (old ++ s) old new = new ++ replaceAll s old new := by
  cases old with
  | nil => exact absurd rfl hne
  | cons o os =>
    unfold replaceAll
    rw [List.cons_append]
    have : (o :: os).isPrefixOf (o :: (os ++ s)) = true := by
      rw [List.isPrefixOf_iff_prefix, ← List.cons_append]; exact List.prefix_append _ _
    rw [replaceGo, if_pos this, replaceGo_skip]
    simp

theorem replaceAll_nomatch (old new : Str) (c : Char) (s : Str) (h : ¬ old <+: c :: s) :
    replaceAll (c :: s) old new = c :: replaceAll s old new := by
  unfold replaceAll
  have : ¬ old.isPrefixOf (c :: s) = true := by rwa [List.isPrefixOf_iff_prefix]
  rw [replaceGo, if_neg this]

/-- no occurrence, no change -/
theorem replaceAll_none (old new s : Str) (hne : old ≠ []) (h : ¬ old <:+: s) : replaceAll s old new = s := by
  induction s with
  | nil => rfl
  | cons c s ih =>
    rw [replaceAll_nomatch _ _ _ _ (fun hp => h hp.isInfix), ih (fun hi => h (hi.trans (List.suffix_cons c s).isInfix))]

theorem prefix_append_left_of_not_mem {old a : Str} {c : Char} {b : Str} (hc : c ∉ old) (h : old <+: a ++ c :: b) :
    old <+: a := by
  by_cases hl : old.length ≤ a.length
  · exact List.prefix_of_prefix_length_le h (List.prefix_append _ _) hl
  · exfalso
    have hp : a ++ [c] <+: old := by
      refine List.prefix_of_prefix_length_le (l₃ := a ++ c :: b) ?_ h (by simp; omega)
      rw [show a ++ c :: b = (a ++ [c]) ++ b by simp]
      exact List.prefix_append _ _
    exact hc (hp.subset (by simp))

/-- replacing does not look across a character that does not occur in the pattern -/
theorem replaceAll_sep (old new : Str) (hne : old ≠ []) (c : Char) (hc : c ∉ old) (a b : Str) :
    replaceAll (a ++ c :: b) old new = replaceAll a old new ++ c :: replaceAll b old new := by
  induction h : a.length using Nat.strongRecOn generalizing a with
  | ind n ih =>
    cases a with
    | nil =>
      simp only [List.nil_append, replaceAll_nil]
      apply replaceAll_nomatch
      intro hp
      have := prefix_append_left_of_not_mem (a := []) hc hp
      exact hne (List.prefix_nil.1 this)
    | cons x a =>
      by_cases hp : old <+: x :: a
      · obtain ⟨t, ht⟩ := hp
        rw [← ht, List.append_assoc, replaceAll_match _ _ _ hne, replaceAll_match _ _ _ hne, List.append_assoc]
        congr 1
        refine ih t.length ?_ t rfl
        have := congrArg List.length ht
        have : 0 < old.length := List.length_pos_iff.2 hne
        simp only [List.length_append, List.length_cons] at *
        omega
      · have hp2 : ¬ old <+: x :: (a ++ c :: b) := by
          intro h2
          rw [← List.cons_append] at h2
          exact hp (prefix_append_left_of_not_mem hc h2)
        rw [List.cons_append, replaceAll_nomatch _ _ _ _ hp2, replaceAll_nomatch _ _ _ _ hp, List.cons_append]
        congr 1
        exact ih a.length (by rw [← h]; simp) a rfl

/-- characters that differ from the first character of the pattern pass through on the left -/
theorem replaceAll_left (o : Char) (os new a b : Str) (ha : o ∉ a) :
    replaceAll (a ++ b) (o :: os) new = a ++ replaceAll b (o :: os) new := by
  induction a with
  | nil => rfl
  | cons x a ih =>
    rw [List.cons_append, replaceAll_nomatch, ih (fun h => ha (by simp [h])), List.cons_append]
    intro hp
    have := (List.cons_prefix_cons.1 hp).1
    exact ha (by simp [this])

/-- characters that differ from the last character of the pattern pass through on the right -/
theorem replaceAll_right (os : Str) (o : Char) (new a b : Str) (hb : o ∉ b) :
    replaceAll (a ++ b) (os ++ [o]) new = replaceAll a (os ++ [o]) new ++ b := by
  have hcut : ∀ a : Str, os ++ [o] <+: a ++ b → os ++ [o] <+: a := by
    intro a hp
    by_cases hl : (os ++ [o]).length ≤ a.length
    · exact List.prefix_of_prefix_length_le hp (List.prefix_append _ _) hl
    · exfalso
      obtain ⟨t, ht⟩ := hp
      have h1 : os ++ [o] ++ t = a ++ b := ht
      have : b = (os.drop a.length ++ [o]) ++ t := by
        have h2 := congrArg (List.drop a.length) h1
        rw [List.drop_left] at h2
        rw [← h2, List.append_assoc, List.drop_append_of_le_length (by simp at hl; omega)]
        simp
      exact hb (by rw [this]; simp)
  induction h : a.length using Nat.strongRecOn generalizing a with
  | ind n ih =>
    cases a with
    | nil =>
      simp only [List.nil_append, replaceAll_nil]
      apply replaceAll_none _ _ _ (by simp)
      intro hi
      exact hb (hi.subset (by simp))
    | cons x a =>
      by_cases hp : os ++ [o] <+: x :: a
      · obtain ⟨t, ht⟩ := hp
        rw [← ht, List.append_assoc, replaceAll_match _ _ _ (by simp), replaceAll_match _ _ _ (by simp), List.append_assoc]
        congr 1
        refine ih t.length ?_ t rfl
        have := congrArg List.length ht
        simp only [List.length_append, List.length_cons] at *
        omega
      · have hp2 : ¬ os ++ [o] <+: x :: (a ++ b) := fun h2 => hp (hcut (x :: a) h2)
        rw [List.cons_append, replaceAll_nomatch _ _ _ _ hp2, replaceAll_nomatch _ _ _ _ hp, List.cons_append]
        congr 1
        exact ih a.length (by rw [← h]; simp) a rfl

/-- replacing keeps a string trimmed if the replacement is -/
theorem replaceAll_trimmed (old new s : Str) (hne : old ≠ []) (hnew : new ≠ []) (hn : Trimmed new) (hs : Trimmed s) :
    Trimmed (replaceAll s old new) := by
  constructor
  · intro c hc
    cases s with
    | nil => simp at hc
    | cons x s =>
      by_cases hp : old <+: x :: s
      · obtain ⟨t, ht⟩ := hp
        rw [← ht, replaceAll_match _ _ _ hne, List.head?_append] at hc
        cases new with
        | nil => exact absurd rfl hnew
        | cons y ys => exact hn.1 c (by simpa using hc)
      · rw [replaceAll_nomatch _ _ _ _ hp] at hc
        simp at hc
        exact hs.1 c (by simp [hc])
  · have key : ∀ s : Str, (∀ c, s.getLast? = some c → isSpace c = false) →
        ∀ c, (replaceAll s old new).getLast? = some c → isSpace c = false := by
      intro s
      induction h : s.length using Nat.strongRecOn generalizing s with
      | ind n ih =>
        intro hs c hc
        cases s with
        | nil => simp at hc
        | cons x s =>
          by_cases hp : old <+: x :: s
          · obtain ⟨t, ht⟩ := hp
            rw [← ht, replaceAll_match _ _ _ hne] at hc
            have hlen : t.length < n := by
              have := congrArg List.length ht
              have : 0 < old.length := List.length_pos_iff.2 hne
              simp only [List.length_append, List.length_cons] at *
              omega
            rw [List.getLast?_append] at hc
            cases hr : (replaceAll t old new).getLast? with
            | none => rw [hr] at hc; exact hn.2 c (by simpa using hc)
            | some d =>
              rw [hr] at hc
              simp at hc
              subst hc
              refine ih t.length hlen t rfl ?_ d hr
              intro e he
              apply hs e
              rw [← ht, List.getLast?_append, he]; rfl
          · rw [replaceAll_nomatch _ _ _ _ hp] at hc
            cases hr : (replaceAll s old new).getLast? with
            | none =>
              rw [List.getLast?_cons, hr] at hc
              simp at hc
              have hnil : replaceAll s old new = [] := List.getLast?_eq_none_iff.1 hr
              cases s with
              | nil => exact hs c (by simp [hc])
              | cons y s =>
                exfalso
                by_cases hp : old <+: y :: s
                · obtain ⟨t, ht⟩ := hp
                  rw [← ht, replaceAll_match _ _ _ hne] at hnil
                  simp at hnil; exact hnew hnil.1
                · rw [replaceAll_nomatch _ _ _ _ hp] at hnil; simp at hnil
            | some d =>
              rw [List.getLast?_cons, hr] at hc
              simp at hc
              subst hc
              refine ih s.length (by rw [← h]; simp) s rfl ?_ d hr
              intro e he
              exact hs e (by rw [List.getLast?_cons, he]; rfl)
    exact key s hs.2

/-! ## split -/

theorem splitChar_ne_nil (sep : Char) (s : Str) : splitChar sep s ≠ [] := by
  cases s with
  | nil => simp [splitChar]
  | cons c cs =>
    simp only [splitChar]
    split
    · simp
    · cases splitChar sep cs <;> simp

theorem splitChar_none (sep : Char) (s : Str) (h : sep ∉ s) : splitChar sep s = [s] := by
  induction s with
  | nil => rfl
  | cons c cs ih =>
    have h1 : ¬ c = sep := fun e => h (by simp [e])
    simp only [splitChar, h1, if_false]
    rw [ih (fun hm => h (by simp [hm]))]

theorem splitChar_append (sep : Char) (a b : Str) (h : sep ∉ a) : splitChar sep (a ++ sep :: b) = a :: splitChar sep b := by
  induction a with
  | nil => simp [splitChar]
  | cons c cs ih =>
    have h1 : ¬ c = sep := fun e => h (by simp [e])
    rw [List.cons_append]
    simp only [splitChar, h1, if_false]
    rw [ih (fun hm => h (by simp [hm]))]

/-- text of comma separated fields -/
theorem splitChar_join (sep : Char) (fs : List Str) (hne : fs ≠ []) (h : ∀ f ∈ fs, sep ∉ f) :
    splitChar sep (joinWith [sep] fs) = fs := by
  induction fs with
  | nil => exact absurd rfl hne
  | cons f fs ih =>
    cases fs with
    | nil => simpa [joinWith] using splitChar_none sep f (h f (by simp))
    | cons g gs =>
      simp only [joinWith]
      rw [List.append_assoc, List.singleton_append, splitChar_append _ _ _ (h f (by simp))]
      rw [ih (by simp) (fun x hx => h x (by simp [hx]))]

/-- every string is the join of its fields -/
theorem sep_cases (sep : Char) (s : Str) : (sep ∉ s) ∨ ∃ a b, s = a ++ sep :: b ∧ sep ∉ a := by
  by_cases h : sep ∈ s
  · right
    obtain ⟨a, b, h1, h2⟩ := List.eq_append_cons_of_mem h
    exact ⟨a, b, h1, h2⟩
  · left; exact h

theorem splitChar_replaceAll (sep : Char) (old new : Str) (hne : old ≠ []) (hs : sep ∉ old) (hn : sep ∉ new) (s : Str) :
    splitChar sep (replaceAll s old new) = (splitChar sep s).map (fun f => replaceAll f old new) := by
  have nosep : ∀ a : Str, sep ∉ a → sep ∉ replaceAll a old new := by
    intro a
    induction h : a.length using Nat.strongRecOn generalizing a with
    | ind n ih =>
      intro ha
      cases a with
      | nil => simp
      | cons x a =>
        by_cases hp : old <+: x :: a
        · obtain ⟨t, ht⟩ := hp
          rw [← ht, replaceAll_match _ _ _ hne]
          have hlen : t.length < n := by
            have := congrArg List.length ht
            have : 0 < old.length := List.length_pos_iff.2 hne
            simp only [List.length_append, List.length_cons] at *
            omega
          have := ih t.length hlen t rfl (fun hm => ha (by rw [← ht]; simp [hm]))
          simp [hn, this]
        · rw [replaceAll_nomatch _ _ _ _ hp]
          have := ih a.length (by rw [← h]; simp) a rfl (fun hm => ha (by simp [hm]))
          simp only [List.mem_cons, not_or]
          exact ⟨fun e => ha (by simp [e]), this⟩
  induction h : s.length using Nat.strongRecOn generalizing s with
  | ind n ih =>
    rcases sep_cases sep s with hno | ⟨a, b, rfl, ha⟩
    · rw [splitChar_none _ _ hno, splitChar_none _ _ (nosep s hno)]; rfl
    · rw [replaceAll_sep _ _ hne _ hs, splitChar_append _ _ _ ha, splitChar_append _ _ _ (nosep a ha), List.map_cons]
      congr 1
      exact ih b.length (by rw [← h]; simp; omega) b rfl

/-! ## collapsing blanks -/

/-- squeeze runs of blanks to one space, keeping leading and trailing ones -/
def squeeze : Str → Str
  | [] => []
  | c :: cs =>
    if isSpace c then (match squeeze cs with
      | ' ' :: t => ' ' :: t
      | t => ' ' :: t)
    else c :: squeeze cs

/-- `' '.join(s.split())` -/
def collapse (s : Str) : Str := joinWith [' '] (splitWs s)

theorem squeeze_space (c : Char) (cs : Str) (h : isSpace c = true) :
    (∃ t, squeeze cs = ' ' :: t ∧ squeeze (c :: cs) = squeeze cs) ∨
    ((∀ t, squeeze cs ≠ ' ' :: t) ∧ squeeze (c :: cs) = ' ' :: squeeze cs) := by
  simp only [squeeze, h, if_true]
  split
  · left; rename_i t ht; exact ⟨t, ht, ht.symm ▸ rfl⟩
  · right; rename_i ht; exact ⟨fun t he => ht t he, rfl⟩

/-- after squeezing, a leading blank is one space -/
theorem squeeze_head (s : Str) (c : Char) (t : Str) (h : squeeze s = c :: t) (hc : isSpace c = true) :
    c = ' ' ∧ ∀ d u, t = d :: u → isSpace d = false := by
  induction s generalizing c t with
  | nil => simp [squeeze] at h
  | cons x s ih =>
    by_cases hx : isSpace x = true
    · rcases squeeze_space x s hx with ⟨t', h1, h2⟩ | ⟨h1, h2⟩
      · rw [h2] at h; exact ih c t h hc
      · rw [h2] at h
        simp only [List.cons.injEq] at h
        refine ⟨h.1.symm, ?_⟩
        intro d u hd
        rw [← h.2] at hd
        cases hds : isSpace d with
        | false => rfl
        | true =>
          obtain ⟨e1, -⟩ := ih d u hd hds
          rw [e1] at hd
          exact absurd hd (h1 u)
    · simp only [squeeze, hx] at h
      simp at h
      rw [h.1] at hx
      exact absurd hc hx

theorem squeeze_append (a b : Str) (c : Char) (hc : isSpace c = false) :
    squeeze (a ++ c :: b) = squeeze a ++ c :: squeeze b := by
  induction a with
  | nil => simp [squeeze, hc]
  | cons x a ih =>
    rw [List.cons_append]
    by_cases hx : isSpace x = true
    · have hcs : c ≠ ' ' := fun e => by rw [e] at hc; exact absurd hc (by decide)
      rcases squeeze_space x a hx with ⟨t, h1, h2⟩ | ⟨h1, h2⟩
      · rw [h2]
        rcases squeeze_space x (a ++ c :: b) hx with ⟨t', h3, h4⟩ | ⟨h3, h4⟩
        · rw [h4, ih]
        · exfalso; exact h3 (t ++ c :: squeeze b) (by rw [ih, h1]; rfl)
      · rw [h2]
        rcases squeeze_space x (a ++ c :: b) hx with ⟨t', h3, h4⟩ | ⟨h3, h4⟩
        · exfalso
          rw [ih] at h3
          cases hq : squeeze a with
          | nil => rw [hq] at h3; simp at h3; exact hcs h3.1
          | cons y ys => rw [hq] at h3; simp at h3; exact h1 ys (by rw [hq, h3.1])
        · rw [h4, ih, List.cons_append]
    · simp only [squeeze, hx]
      simp [ih]

theorem squeeze_mem (s : Str) (c : Char) (h : c ∈ squeeze s) : c = ' ' ∨ c ∈ s := by
  induction s with
  | nil => simp [squeeze] at h
  | cons x s ih =>
    by_cases hx : isSpace x = true
    · rcases squeeze_space x s hx with ⟨t, h1, h2⟩ | ⟨h1, h2⟩
      · rw [h2] at h
        rcases ih h with h | h
        · left; exact h
        · right; simp [h]
      · rw [h2] at h
        rcases List.mem_cons.1 h with h | h
        · left; exact h
        · rcases ih h with h | h
          · left; exact h
          · right; simp [h]
    · simp only [squeeze, hx] at h
      rcases List.mem_cons.1 (by simpa using h) with h | h
      · right; simp [h]
      · rcases ih h with h | h
        · left; exact h
        · right; simp [h]

theorem splitWsGo_ne_nil (cur s : Str) (h : cur ≠ []) : splitWsGo cur s ≠ [] := by
  induction s generalizing cur with
  | nil => cases cur with
    | nil => exact absurd rfl h
    | cons => simp [splitWsGo]
  | cons c s ih =>
    simp only [splitWsGo]
    split
    · split
      · rename_i h2; cases cur <;> simp at h2 h
      · simp
    · exact ih _ (by simp)

theorem rstrip_cons_blank (t : Str) : rstrip (' ' :: t) = if rstrip t = [] then [] else ' ' :: rstrip t := by
  unfold rstrip
  rw [List.reverse_cons, List.dropWhile_append]
  split
  · rename_i h
    simp only [List.isEmpty_iff] at h
    rw [h]
    rfl
  · rename_i h
    rw [if_neg]
    · simp
    · intro h2
      apply h
      simpa using h2

/-- a leading blank squeezes to one space followed by what stripping on the left leaves -/
theorem squeeze_blank (c : Char) (s : Str) (hc : isSpace c = true) :
    ∃ t, squeeze (c :: s) = ' ' :: t ∧ strip (squeeze s) = rstrip t := by
  have nohead : ∀ t : Str, (∀ d u, t = d :: u → isSpace d = false) → lstrip t = t := by
    intro t ht
    cases t with
    | nil => rfl
    | cons d u => exact lstrip_of_head d u (ht d u rfl)
  rcases squeeze_space c s hc with ⟨t, h1, h2⟩ | ⟨h1, h2⟩
  · refine ⟨t, by rw [h2, h1], ?_⟩
    unfold strip
    rw [h1, show ' ' :: t = [' '] ++ t from rfl, lstrip_append_spaces _ _ (by decide),
      nohead t (squeeze_head s ' ' t h1 (by decide)).2]
  · refine ⟨squeeze s, h2, ?_⟩
    unfold strip
    rw [nohead]
    intro d u hd
    cases hds : isSpace d with
    | false => rfl
    | true =>
      have := (squeeze_head s d u hd hds).1
      rw [this] at hd
      exact absurd hd (h1 u)

/-- joining the blank-separated words is squeezing and trimming -/
theorem join_splitWsGo (s : Str) :
    (∀ cur : Str, cur ≠ [] → joinWith [' '] (splitWsGo cur s) = cur.reverse ++ rstrip (squeeze s)) ∧
    joinWith [' '] (splitWsGo [] s) = strip (squeeze s) ∧ (splitWsGo [] s = [] ↔ strip (squeeze s) = []) := by
  induction s with
  | nil =>
    refine ⟨?_, rfl, by simp [splitWsGo, squeeze]⟩
    intro cur hc
    cases cur with
    | nil => exact absurd rfl hc
    | cons x xs => simp [splitWsGo, joinWith, squeeze, rstrip]
  | cons c s ih =>
    obtain ⟨ih1, ih2, ih3⟩ := ih
    by_cases hc : isSpace c = true
    · -- blank
      have hstrip : strip (squeeze (c :: s)) = strip (squeeze s) := by
        rcases squeeze_space c s hc with ⟨t, h1, h2⟩ | ⟨h1, h2⟩
        · rw [h2]
        · rw [h2]; unfold strip
          rw [show ' ' :: squeeze s = [' '] ++ squeeze s from rfl, lstrip_append_spaces _ _ (by decide)]
      have e0 : splitWsGo [] (c :: s) = splitWsGo [] s := by simp [splitWsGo, hc]
      refine ⟨?_, ?_, ?_⟩
      · intro cur hcur
        have e : splitWsGo cur (c :: s) = cur.reverse :: splitWsGo [] s := by
          simp only [splitWsGo, hc, if_true]
          cases cur with
          | nil => exact absurd rfl hcur
          | cons => simp
        rw [e]
        have hr : rstrip (squeeze (c :: s)) = if strip (squeeze s) = [] then [] else ' ' :: strip (squeeze s) := by
          obtain ⟨t, h1, h2⟩ := squeeze_blank c s hc
          rw [h1, h2, rstrip_cons_blank]
        rw [hr]
        cases hw : splitWsGo [] s with
        | nil => rw [if_pos (ih3.1 hw)]; simp [joinWith]
        | cons w ws =>
          rw [if_neg (fun h => by rw [ih3.2 h] at hw; exact absurd hw (by simp))]
          rw [hw] at ih2
          simp only [joinWith, ih2]
          simp
      · rw [e0, ih2, hstrip]
      · rw [e0, hstrip]; exact ih3
    · have hc' : isSpace c = false := by simpa using hc
      have e : ∀ cur, splitWsGo cur (c :: s) = splitWsGo (c :: cur) s := by
        intro cur; simp [splitWsGo, hc']
      have eq : squeeze (c :: s) = c :: squeeze s := by simp [squeeze, hc']
      have hrs : rstrip (c :: squeeze s) = c :: rstrip (squeeze s) := by
        unfold rstrip
        rw [List.reverse_cons, List.dropWhile_append]
        split
        · rename_i h
          simp only [List.isEmpty_iff] at h
          simp [h, List.dropWhile_cons, hc']
        · simp
      refine ⟨?_, ?_, ?_⟩
      · intro cur hcur
        rw [e, ih1 _ (by simp), eq, hrs]
        simp
      · rw [e, ih1 _ (by simp), eq]
        unfold strip
        rw [lstrip_of_head _ _ hc', hrs]
        simp
      · constructor
        · intro h; rw [e] at h; exact absurd h (splitWsGo_ne_nil _ _ (by simp))
        · intro h
          rw [eq] at h
          unfold strip at h
          rw [lstrip_of_head _ _ hc', hrs] at h
          exact absurd h (by simp)

theorem collapse_eq (s : Str) : collapse s = strip (squeeze s) := (join_splitWsGo s).2.1

theorem collapse_trimmed (s : Str) : Trimmed (collapse s) := by
  rw [collapse_eq]
  obtain ⟨a, b, h1, h2, h3, h4⟩ := strip_decomp (squeeze s)
  exact h4

/-- split at a character commutes with collapsing, up to stripping the fields -/
theorem splitChar_collapse (sep : Char) (hsep : isSpace sep = false) (s : Str) :
    (splitChar sep (collapse s)).map strip = (splitChar sep s).map collapse := by
  have hsp : sep ≠ ' ' := fun e => by rw [e] at hsep; exact absurd hsep (by decide)
  have hsq : ∀ a : Str, sep ∉ a → sep ∉ squeeze a := by
    intro a ha hm
    rcases squeeze_mem a sep hm with h | h
    · exact hsp h
    · exact ha h
  have step1 : ∀ s : Str, (splitChar sep (squeeze s)).map strip = (splitChar sep s).map collapse := by
    intro s
    induction h : s.length using Nat.strongRecOn generalizing s with
    | ind n ih =>
      rcases sep_cases sep s with hno | ⟨a, b, rfl, ha⟩
      · rw [splitChar_none _ _ hno, splitChar_none _ _ (hsq s hno)]
        simp [collapse_eq]
      · rw [squeeze_append _ _ _ hsep, splitChar_append _ _ _ ha, splitChar_append _ _ _ (hsq a ha)]
        rw [List.map_cons, List.map_cons, ih b.length (by rw [← h]; simp; omega) b rfl, collapse_eq a]
  have step2 : ∀ x : Str, ∀ a, (∀ c ∈ a, isSpace c = true) → (splitChar sep (a ++ x)).map strip = (splitChar sep x).map strip := by
    intro x a ha
    have hna : sep ∉ a := fun hm => by rw [ha sep hm] at hsep; exact absurd hsep (by decide)
    rcases sep_cases sep x with hno | ⟨u, v, rfl, hu⟩
    · rw [splitChar_none _ _ hno, splitChar_none _ _ (by simp [hno, hna])]
      simp only [List.map_cons, List.map_nil]
      congr 1
      unfold strip
      rw [lstrip_append_spaces _ _ ha]
    · rw [← List.append_assoc, splitChar_append _ _ _ hu, splitChar_append _ _ _ (by simp [hu, hna])]
      simp only [List.map_cons]
      congr 1
      unfold strip
      rw [lstrip_append_spaces _ _ ha]
  have step3 : ∀ x : Str, ∀ b, (∀ c ∈ b, isSpace c = true) → (splitChar sep (x ++ b)).map strip = (splitChar sep x).map strip := by
    intro x b hb
    have hnb : sep ∉ b := fun hm => by rw [hb sep hm] at hsep; exact absurd hsep (by decide)
    have hst : ∀ u : Str, strip (u ++ b) = strip u := by
      intro u
      obtain ⟨p, q, h1, h2, h3, h4⟩ := strip_decomp u
      conv => lhs; rw [h1, List.append_assoc]
      exact strip_surround _ _ _ h2 (by
        intro c hc
        rcases List.mem_append.1 hc with h | h
        · exact h3 c h
        · exact hb c h) h4
    induction h : x.length using Nat.strongRecOn generalizing x with
    | ind n ih =>
      rcases sep_cases sep x with hno | ⟨u, v, rfl, hu⟩
      · rw [splitChar_none _ _ hno, splitChar_none _ _ (by simp [hno, hnb])]
        simp [hst]
      · rw [List.append_assoc, List.cons_append, splitChar_append _ _ _ hu, splitChar_append _ _ _ hu]
        simp only [List.map_cons]
        rw [ih v.length (by rw [← h]; simp; omega) v rfl]
  rw [← step1, collapse_eq]
  obtain ⟨a, b, h1, h2, h3, h4⟩ := strip_decomp (squeeze s)
  conv => rhs; rw [h1, List.append_assoc, step2 _ a h2, step3 _ b h3]

end Verif
