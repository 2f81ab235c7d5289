import Verif.Lemmas.Str
import Verif.Lemmas.Utils
import Verif.Lemmas.Elf
import Verif.Spec.Signature
import Verif.Model.Signature
/-! Lemmas on name prefixes and signatures. -/
set_option autoImplicit false

namespace Verif
open Spec

/-! ## common prefixes -/

theorem mem_downTo2 (n l : Nat) : l ∈ downTo2 n ↔ 2 ≤ l ∧ l ≤ n + 1 := by
  induction n with
  | zero => simp [downTo2]; omega
  | succ n ih =>
    simp only [downTo2, List.mem_cons, ih]
    omega

theorem downTo2_sorted (n : Nat) : (downTo2 n).Pairwise (· > ·) := by
  induction n with
  | zero => simp [downTo2]
  | succ n ih =>
    simp only [downTo2, List.pairwise_cons]
    refine ⟨?_, ih⟩
    intro l hl
    have := (mem_downTo2 n l).1 hl
    omega

theorem isCandidate_iff (l : Nat) (hl : 1 ≤ l) (n : Str) :
    isCandidate l n = true ↔ l ≤ n.length ∧ (n.take l).getLast? = some '_' := by
  simp only [isCandidate, Bool.and_eq_true, decide_eq_true_eq, beq_iff_eq, ge_iff_le]
  constructor
  · rintro ⟨h1, h2⟩
    refine ⟨h1, ?_⟩
    rw [List.getLast?_eq_getElem?, List.length_take, Nat.min_eq_left h1, List.getElem?_take_of_lt (by omega)]
    exact h2
  · rintro ⟨h1, h2⟩
    refine ⟨h1, ?_⟩
    rwa [List.getLast?_eq_getElem?, List.length_take, Nat.min_eq_left h1, List.getElem?_take_of_lt (by omega)] at h2

/-- candidates cut to `p` are the names starting with `p` -/
theorem count_cut (names : List Str) (p : Str) (hp : p.getLast? = some '_') (l : Nat) (hl : l = p.length) :
    ((names.filter (isCandidate l)).map (List.take l)).count p = countStarting p names := by
  subst hl
  have h1 : 1 ≤ p.length := by
    cases p with
    | nil => simp at hp
    | cons => simp
  unfold countStarting
  induction names with
  | nil => rfl
  | cons n names ih =>
    by_cases hn : p <+: n
    · have hlen : p.length ≤ n.length := hn.length_le
      have htake : n.take p.length = p := by
        obtain ⟨t, rfl⟩ := hn; simp
      have hc : isCandidate p.length n = true := (isCandidate_iff _ h1 n).2 ⟨hlen, by rw [htake]; exact hp⟩
      rw [List.filter_cons_of_pos hc, List.map_cons, htake, List.count_cons_self, ih,
        List.filter_cons_of_pos (by simpa using hn), List.length_cons]
    · rw [List.filter_cons_of_neg (p := fun n => decide (p <+: n)) (by simpa using hn), ← ih]
      by_cases hc : isCandidate p.length n = true
      · rw [List.filter_cons_of_pos hc, List.map_cons, List.count_cons_of_ne]
        intro he
        exact hn (by rw [← he]; exact List.take_prefix _ _)
      · rw [List.filter_cons_of_neg hc]

theorem mem_prefixesOfLen (names : List Str) (t l : Nat) (ht : 1 ≤ t) (hl : 2 ≤ l) (p : Str) :
    p ∈ prefixesOfLen names t l ↔ p.length = l ∧ p.getLast? = some '_' ∧ t ≤ countStarting p names := by
  unfold prefixesOfLen
  simp only
  have hcount : p.length = l → p.getLast? = some '_' →
      ((names.filter (isCandidate l)).map (List.take l)).count p = countStarting p names := fun h1 h2 =>
    count_cut names p h2 l h1.symm
  constructor
  · intro h
    split at h
    · simp at h
    · simp only [List.mem_filter, List.mem_eraseDups, List.mem_map, decide_eq_true_eq] at h
      obtain ⟨⟨n, ⟨hn, hc⟩, rfl⟩, hcnt⟩ := h
      obtain ⟨c1, c2⟩ := (isCandidate_iff l (by omega) n).1 hc
      have hlen : (n.take l).length = l := by simp; omega
      rw [hcount hlen c2] at hcnt
      exact ⟨hlen, c2, hcnt⟩
  · rintro ⟨h1, h2, h3⟩
    have hc := hcount h1 h2
    have hle := List.count_le_length (l := (names.filter (isCandidate l)).map (List.take l)) (a := p)
    rw [List.length_map] at hle
    rw [if_neg (by omega)]
    simp only [List.mem_filter, List.mem_eraseDups, decide_eq_true_eq, ge_iff_le]
    refine ⟨?_, by omega⟩
    apply List.count_pos_iff.1
    omega

theorem prefixesOfLen_nodup (names : List Str) (t l : Nat) : (prefixesOfLen names t l).Nodup := by
  unfold prefixesOfLen
  simp only
  split
  · simp
  · exact (nodup_eraseDups' _).filter _

theorem commonPrefixes_ok (names : List Str) (t : Nat) (hne : names ≠ []) :
    ∃ m, (∀ n ∈ names, n.length ≤ m) ∧ commonPrefixes names t = .ok ((downTo2 (m - 1)).flatMap (prefixesOfLen names t)) := by
  unfold commonPrefixes
  cases h : (names.map List.length).max? with
  | none => simp at h; exact absurd h hne
  | some m =>
    refine ⟨m, ?_, rfl⟩
    intro n hn
    exact (List.max?_eq_some_iff.1 h).2 _ (List.mem_map_of_mem hn)

/-! ## reading lines -/

def ReadSig.steps : Nat → ReadSig → Option ReadSig
  | 0, s => some s
  | n + 1, s => s.step.bind (ReadSig.steps n)

theorem ReadSig.steps_done (n : Nat) (s t : ReadSig) (h : ReadSig.steps n s = some t) (m : Nat) :
    ReadSig.steps (n + m) s = ReadSig.steps m t := by
  induction n generalizing s with
  | zero => simp [ReadSig.steps] at h; rw [h, Nat.zero_add]
  | succ n ih =>
    rw [Nat.succ_add]
    simp only [ReadSig.steps] at h ⊢
    cases hs : s.step with
    | none => rw [hs] at h; simp at h
    | some s' => rw [hs] at h; simp only [Option.bind] at h ⊢; exact ih s' h

theorem ReadSig.steps_stuck (n : Nat) (sig : Str) (h : endsWith sig cs!")" = false) :
    (ReadSig.steps n ⟨sig, []⟩).isSome = true := by
  induction n with
  | zero => rfl
  | succ n ih => simpa [ReadSig.steps, ReadSig.step, h] using ih

/-- `readSigLoop` is the loop: a result is where the steps stop, `hang` is never stopping. -/
theorem readSigLoop_iff_steps (sig : Str) (ahead : List Str) :
    (∀ r, readSigLoop sig ahead = .ok r ↔
      ∃ n s, ReadSig.steps n ⟨sig, ahead⟩ = some s ∧ s.step = none ∧ s.sig = r) ∧
    (readSigLoop sig ahead = .error .hang ↔ ∀ n, (ReadSig.steps n ⟨sig, ahead⟩).isSome = true) := by
  have stop : ∀ sig ahead, endsWith sig cs!")" = true →
      (∀ r, (.ok sig : Res Str) = .ok r ↔
        ∃ n s, ReadSig.steps n ⟨sig, ahead⟩ = some s ∧ s.step = none ∧ s.sig = r) ∧
      ¬ ∀ n, (ReadSig.steps n ⟨sig, ahead⟩).isSome = true := by
    intro sig ahead hl
    constructor
    · intro r
      constructor
      · intro h; cases h
        exact ⟨0, _, rfl, by simp [ReadSig.step, hl], rfl⟩
      · rintro ⟨n, s, h1, h2, h3⟩
        cases n with
        | zero => simp [ReadSig.steps] at h1; rw [← h3, ← h1]
        | succ n => simp [ReadSig.steps, ReadSig.step, hl] at h1
    · intro h
      have := h 1
      simp [ReadSig.steps, ReadSig.step, hl] at this
  induction ahead generalizing sig with
  | nil =>
    cases hl : endsWith sig cs!")" with
    | true =>
      simp only [readSigLoop, hl, if_true, reduceCtorEq, false_iff]
      exact stop sig [] hl
    | false =>
      simp only [readSigLoop, hl, Bool.false_eq_true, if_false, reduceCtorEq, false_iff, true_iff]
      have hf := fun n => ReadSig.steps_stuck n sig hl
      refine ⟨?_, hf⟩
      rintro r ⟨n, s, h1, h2, -⟩
      have := hf (n + 1)
      rw [ReadSig.steps_done n _ s h1 1] at this
      simp [ReadSig.steps, h2] at this
  | cons l ls ih =>
    cases hl : endsWith sig cs!")" with
    | true =>
      simp only [readSigLoop, hl, if_true, reduceCtorEq, false_iff]
      exact stop sig _ hl
    | false =>
      simp only [readSigLoop, hl, Bool.false_eq_true, if_false]
      have hstep : ReadSig.step ⟨sig, l :: ls⟩ = some ⟨sig ++ strip l, ls⟩ := by simp [ReadSig.step, hl]
      obtain ⟨i1, i2⟩ := ih (sig ++ strip l)
      constructor
      · intro r
        rw [i1 r]
        constructor
        · rintro ⟨n, s, h1, h2, h3⟩
          exact ⟨n + 1, s, by simp [ReadSig.steps, hstep, h1], h2, h3⟩
        · rintro ⟨n, s, h1, h2, h3⟩
          cases n with
          | zero => simp [ReadSig.steps] at h1; rw [← h1, hstep] at h2; simp at h2
          | succ n => simp [ReadSig.steps, hstep] at h1; exact ⟨n, s, h1, h2, h3⟩
      · rw [i2]
        constructor
        · intro h n
          cases n with
          | zero => rfl
          | succ n => simpa [ReadSig.steps, hstep] using h n
        · intro h n
          simpa [ReadSig.steps, hstep] using h (n + 1)

theorem endsWith_paren (s : Str) : endsWith s cs!")" = true ↔ s.getLast? = some ')' := by
  rw [endsWith_iff]
  constructor
  · rintro ⟨t, rfl⟩; simp
  · intro h
    obtain ⟨l, e⟩ := List.getLast?_eq_some_iff.1 h
    exact ⟨l, e.symm⟩

theorem readSigLoop_spells (sig : Str) (body post : List Str) (text : Str)
    (htext : sig ++ (body.map strip).flatten = text) (hend : text.getLast? = some ')')
    (hno : ∀ k, k < body.length → (sig ++ ((body.take k).map strip).flatten).getLast? ≠ some ')') :
    readSigLoop sig (body ++ post) = .ok text := by
  induction body generalizing sig with
  | nil =>
    simp at htext
    subst htext
    have := (endsWith_paren sig).2 hend
    cases post <;> simp [readSigLoop, this]
  | cons l ls ih =>
    have h0 : endsWith sig cs!")" = false := by
      have := hno 0 (by simp)
      simp at this
      rw [← endsWith_paren] at this
      simpa using this
    simp only [List.cons_append, readSigLoop, h0, Bool.false_eq_true, if_false]
    apply ih
    · simpa using htext
    · intro k hk
      have := hno (k + 1) (by simpa using hk)
      simpa using this

theorem readSigText_spells (pre body post : List Str) (text : Str) (h : Spells body text)
    (hend : text.getLast? = some ')') (line : Nat) (hline : line = pre.length + 1) :
    readSigText (pre ++ body ++ post) line = .ok text := by
  obtain ⟨hne, ht, hno⟩ := h
  subst hline
  unfold readSigText
  rw [if_neg (by simp)]
  simp only [Nat.add_sub_cancel, List.append_assoc, List.drop_left]
  cases body with
  | nil => exact absurd rfl hne
  | cons l ls =>
    simp only [List.cons_append]
    apply readSigLoop_spells
    · simpa using ht
    · exact hend
    · intro k hk
      have := hno (k + 1) (by omega) (by simpa using hk)
      simpa using this

/-! ## cleaning fields -/

/-- a word for the purpose of cleaning: no blanks, not starting with the annotation -/
def Wordish (w : Str) : Prop := w ≠ [] ∧ (∀ c ∈ w, isSpace c = false) ∧ ¬ cs!"__user" <+: w

theorem Spec.CleanWord.wordish {w : Str} (h : CleanWord w) : Wordish w := ⟨h.1, fun c hc => (h.2.1 c hc).1, h.2.2⟩

/-- what `cleanSig` does to one field -/
def cleanField (f : Str) : Str := replaceAll (collapse (replaceAll f cs!" __user" [])) cs!"* *" cs!"**"

theorem strip_replaceStars (x : Str) :
    strip (replaceAll x cs!"* *" cs!"**") = replaceAll (strip x) cs!"* *" cs!"**" := by
  obtain ⟨a, b, h1, h2, h3, h4⟩ := strip_decomp x
  have ha : '*' ∉ a := fun h => by have := h2 _ h; revert this; decide
  have hb : '*' ∉ b := fun h => by have := h3 _ h; revert this; decide
  conv => lhs; rw [h1]
  have e : replaceAll (a ++ strip x ++ b) cs!"* *" cs!"**" = a ++ replaceAll (strip x) cs!"* *" cs!"**" ++ b := by
    have r := replaceAll_right cs!"* " '*' cs!"**" (a ++ strip x) b hb
    have l := replaceAll_left '*' cs!" *" cs!"**" a (strip x) ha
    simp only [List.cons_append, List.nil_append] at r
    rw [r, l]
  rw [e]
  exact strip_surround _ _ _ h2 h3 (replaceAll_trimmed _ _ _ (by simp) (by simp) (by constructor <;> simp <;> decide) h4)

/-- the stripped fields of the cleaned text are the cleaned fields of the text -/
theorem fields_cleanSig (s : Str) : (splitChar ',' (cleanSig s)).map strip = (splitChar ',' s).map cleanField := by
  unfold cleanSig
  rw [splitChar_replaceAll _ _ _ (by simp) (by decide) (by decide), List.map_map]
  have e1 : (strip ∘ fun f => replaceAll f cs!"* *" cs!"**") = (fun f => replaceAll f cs!"* *" cs!"**") ∘ strip := by
    funext x; exact strip_replaceStars x
  rw [e1, ← List.map_map]
  have e2 : joinWith cs!" " (splitWs (replaceAll s cs!" __user" [])) = collapse (replaceAll s cs!" __user" []) := rfl
  rw [e2, splitChar_collapse _ (by decide), splitChar_replaceAll _ _ _ (by simp) (by decide) (by decide),
    List.map_map, List.map_map]
  rfl

/-- layouts without annotations -/
inductive Plain : List Str → Str → Prop
  | done (b : Str) : (∀ c ∈ b, isSpace c = true) → Plain [] b
  | word (b w rest : Str) (ws : List Str) : b ≠ [] → (∀ c ∈ b, isSpace c = true) → Plain ws rest →
      Plain (w :: ws) (b ++ w ++ rest)

theorem Plain.head {ws : List Str} {r : Str} (h : Plain ws r) : ∀ c t, r = c :: t → isSpace c = true := by
  cases h with
  | done b hb => intro c t he; exact hb c (by simp [he])
  | word b w rest ws hne hb hp =>
    intro c t he
    cases b with
    | nil => exact absurd rfl hne
    | cons x xs => simp at he; rw [← he.1]; exact hb x (by simp)

theorem Spec.Rest.head {ws : List Str} {r : Str} (h : Rest ws r) : ∀ c t, r = c :: t → isSpace c = true := by
  cases h with
  | done b hb => intro c t he; exact hb c (by simp [he])
  | word b w rest ws hne hb hp =>
    intro c t he
    cases b with
    | nil => exact absurd rfl hne
    | cons x xs => simp at he; rw [← he.1]; exact hb x (by simp)
  | user b rest ws hb hp =>
    intro c t he
    cases b with
    | nil => simp at he; rw [← he.1]; decide
    | cons x xs => simp at he; rw [← he.1]; exact hb x (by simp)

theorem Plain.blanks {ws : List Str} {r : Str} (h : Plain ws r) (b : Str) (hb : ∀ c ∈ b, isSpace c = true) :
    Plain ws (b ++ r) := by
  cases h with
  | done b' hb' =>
    refine .done _ ?_
    intro c hc
    rcases List.mem_append.1 hc with h | h
    · exact hb c h
    · exact hb' c h
  | word b' w rest ws hne hb' hp =>
    rw [← List.append_assoc, ← List.append_assoc]
    refine .word _ w rest ws (by simp [hne]) ?_ hp
    intro c hc
    rcases List.mem_append.1 hc with h | h
    · exact hb c h
    · exact hb' c h

/-- a space-led pattern does not match inside blanks that are followed by other text -/
theorem replaceUser_blanks (b x : Str) (hb : ∀ c ∈ b, isSpace c = true) (hx : ¬ cs!"__user" <+: x) :
    replaceAll (b ++ x) cs!" __user" [] = b ++ replaceAll x cs!" __user" [] := by
  induction b with
  | nil => rfl
  | cons c b ih =>
    rw [List.cons_append, replaceAll_nomatch, ih (fun y hy => hb y (by simp [hy])), List.cons_append]
    intro hp
    have h2 := (List.cons_prefix_cons.1 hp).2
    cases b with
    | nil => exact hx h2
    | cons d b =>
      have := (List.cons_prefix_cons.1 h2).1
      have hd := hb d (by simp)
      rw [← this] at hd
      exact absurd hd (by decide)

theorem user_not_prefix (w rest : Str) (hw : ¬ cs!"__user" <+: w) (hr : ∀ c t, rest = c :: t → isSpace c = true) :
    ¬ cs!"__user" <+: w ++ rest := by
  intro hp
  by_cases hl : (cs!"__user").length ≤ w.length
  · exact hw (List.prefix_of_prefix_length_le hp (List.prefix_append _ _) hl)
  · cases rest with
    | nil => simp at hp; exact hw hp
    | cons c t =>
      have : w ++ [c] <+: cs!"__user" := by
        refine List.prefix_of_prefix_length_le (l₃ := w ++ c :: t) ?_ hp (by simp at hl ⊢; omega)
        rw [show w ++ c :: t = (w ++ [c]) ++ t by simp]
        exact List.prefix_append _ _
      have hm : c ∈ cs!"__user" := this.subset (by simp)
      have hc := hr c t rfl
      revert hc
      simp only [List.mem_cons, List.not_mem_nil, or_false] at hm
      rcases hm with rfl | rfl | rfl | rfl | rfl | rfl <;> decide

theorem rest_unuser {ws : List Str} {r : Str} (h : Rest ws r) (hw : ∀ w ∈ ws, Wordish w) :
    Plain ws (replaceAll r cs!" __user" []) := by
  induction h with
  | done b hb =>
    have := replaceUser_blanks b [] hb (by decide)
    simp only [List.append_nil, replaceAll_nil] at this
    rw [this]
    exact .done b hb
  | word b w rest ws hne hb hr ih =>
    have cw := hw w (by simp)
    rw [List.append_assoc, replaceUser_blanks b _ hb (user_not_prefix w rest cw.2.2 hr.head),
      replaceAll_left ' ' cs!"__user" [] w rest (fun hm => by
        have := cw.2.1 ' ' hm; exact absurd this (by decide)), ← List.append_assoc]
    exact .word b w _ ws hne hb (ih fun x hx => hw x (by simp [hx]))
  | user b rest ws hb hr ih =>
    rw [List.append_assoc, replaceUser_blanks b _ hb (by intro hp; exact absurd (List.cons_prefix_cons.1 hp).1 (by decide)), replaceAll_match _ _ _ (by simp)]
    exact (ih hw).blanks b hb

theorem splitWsGo_word (w r : Str) (cur : Str) (hw : ∀ c ∈ w, isSpace c = false) :
    splitWsGo cur (w ++ r) = splitWsGo (w.reverse ++ cur) r := by
  induction w generalizing cur with
  | nil => rfl
  | cons c w ih =>
    rw [List.cons_append]
    simp only [splitWsGo, hw c (by simp), Bool.false_eq_true, if_false]
    rw [ih _ (fun x hx => hw x (by simp [hx]))]
    simp

theorem splitWsGo_blanks (b r : Str) (hb : ∀ c ∈ b, isSpace c = true) : splitWsGo [] (b ++ r) = splitWsGo [] r := by
  induction b with
  | nil => rfl
  | cons c b ih =>
    rw [List.cons_append]
    simp only [splitWsGo, hb c (by simp), if_true, List.isEmpty_nil]
    exact ih fun x hx => hb x (by simp [hx])

theorem splitWs_plain {ws : List Str} {r : Str} (h : Plain ws r) (hw : ∀ w ∈ ws, Wordish w) :
    ∀ cur : Str, cur ≠ [] → splitWsGo cur r = cur.reverse :: ws := by
  induction h with
  | done b hb =>
    intro cur hc
    cases b with
    | nil => cases cur <;> simp [splitWsGo] at hc ⊢
    | cons c b =>
      have := splitWsGo_blanks b [] (fun x hx => hb x (by simp [hx]))
      simp at this
      simp only [splitWsGo, hb c (by simp), if_true, this]
      cases cur <;> simp at hc ⊢
  | word b w rest ws hne hb hr ih =>
    intro cur hc
    cases b with
    | nil => exact absurd rfl hne
    | cons c b =>
      have cw := hw w (by simp)
      simp only [List.cons_append, splitWsGo, hb c (by simp), if_true]
      rw [List.append_assoc, splitWsGo_blanks b _ (fun x hx => hb x (by simp [hx])),
        splitWsGo_word w rest [] (cw.2.1)]
      rw [ih (fun x hx => hw x (by simp [hx])) _ (by simpa using cw.1)]
      cases cur <;> simp at hc ⊢

theorem splitWs_field {ws : List Str} {f : Str} (h : FieldText ws f) (hw : ∀ w ∈ ws, Wordish w) :
    splitWs (replaceAll f cs!" __user" []) = ws := by
  cases h with
  | mk b w rest ws hb hr =>
    have cw := hw w (by simp)
    rw [List.append_assoc, replaceUser_blanks b _ hb (user_not_prefix w rest cw.2.2 hr.head),
      replaceAll_left ' ' cs!"__user" [] w rest (fun hm => by
        have := cw.2.1 ' ' hm; exact absurd this (by decide))]
    unfold splitWs
    rw [splitWsGo_blanks b _ hb, splitWsGo_word w _ [] (cw.2.1)]
    rw [splitWs_plain (rest_unuser hr fun x hx => hw x (by simp [hx])) (fun x hx => hw x (by simp [hx])) _
      (by simpa using cw.1)]
    simp

/-! ## stars -/

theorem stars_pass (w0 : Str) (c : Char) (r : Str) (hw : ∀ x ∈ w0, isSpace x = false) (hc : isSpace c = false) :
    replaceAll (w0 ++ c :: r) cs!"* *" cs!"**" = w0 ++ replaceAll (c :: r) cs!"* *" cs!"**" := by
  induction w0 with
  | nil => rfl
  | cons x w0 ih =>
    rw [List.cons_append, replaceAll_nomatch, ih (fun y hy => hw y (by simp [hy])), List.cons_append]
    intro hp
    have h2 := (List.cons_prefix_cons.1 hp).2
    cases w0 with
    | nil =>
      have := (List.cons_prefix_cons.1 h2).1
      rw [← this] at hc; exact absurd hc (by decide)
    | cons d b =>
      have := (List.cons_prefix_cons.1 h2).1
      have hd := hw d (by simp)
      rw [← this] at hd
      exact absurd hd (by decide)

theorem join_head (v : Str) (ws : List Str) (hv : v ≠ []) : (joinWith cs!" " (v :: ws)).head? = v.head? := by
  cases ws with
  | nil => rfl
  | cons w ws =>
    simp only [joinWith]
    cases v with
    | nil => exact absurd rfl hv
    | cons c v => rfl

theorem Spec.NoTriple.tail {a : Str} {ws : List Str} (h : NoTriple (a :: ws)) : NoTriple ws := by
  intro pre x c post he
  exact h (a :: pre) x c post (by rw [he]; rfl)

theorem replaceStars_join (ws : List Str) (hw : ∀ w ∈ ws, w ≠ [] ∧ ∀ c ∈ w, isSpace c = false) (ht : NoTriple ws) :
    replaceAll (joinWith cs!" " ws) cs!"* *" cs!"**" = glue ws := by
  induction ws with
  | nil => rfl
  | cons w ws ih =>
    obtain ⟨hne, hsp⟩ := hw w (by simp)
    obtain ⟨w0, z, rfl⟩ : ∃ w0 z, w = w0 ++ [z] := by
      rcases List.eq_nil_or_concat w with h | ⟨l, b, h⟩
      · exact absurd h hne
      · exact ⟨l, b, by rw [h, List.concat_eq_append]⟩
    have hz : isSpace z = false := hsp z (by simp)
    have hw0 : ∀ x ∈ w0, isSpace x = false := fun x hx => hsp x (by simp [hx])
    cases ws with
    | nil =>
      simp only [joinWith, glue]
      rw [stars_pass w0 z [] hw0 hz, replaceAll_nomatch]
      · simp
      · intro hp; exact absurd hp.length_le (by simp)
    | cons v ws =>
      have ih' := ih (fun x hx => hw x (by simp [hx])) ht.tail
      obtain ⟨hvne, hvsp⟩ := hw v (by simp)
      have hhead := join_head v ws hvne
      have ej : joinWith cs!" " ((w0 ++ [z]) :: v :: ws) = w0 ++ z :: ' ' :: joinWith cs!" " (v :: ws) := by
        simp [joinWith]
      rw [ej, stars_pass w0 z _ hw0 hz]
      simp only [glue]
      cases hv : v with
      | nil => exact absurd hv hvne
      | cons y ys =>
        rw [hv] at hhead ih'
        cases hJ : joinWith cs!" " ((y :: ys) :: ws) with
        | nil => rw [hJ] at hhead; simp at hhead
        | cons y' J =>
          rw [hJ] at hhead ih'
          simp at hhead
          subst hhead
          by_cases hc : (w0 ++ [z]).getLast? = some '*' ∧ (y' :: ys).head? = some '*'
          · rw [if_pos hc]
            obtain ⟨e1, e2⟩ := hc
            simp at e1 e2
            subst e1 e2
            rw [show '*' :: ' ' :: '*' :: J = cs!"* *" ++ J from rfl, replaceAll_match _ _ _ (by simp)]
            rw [← ih', replaceAll_nomatch]
            · simp
            · intro hp
              -- the second word is a lone star followed by a star: excluded
              rw [← hJ] at hp
              cases ys with
              | nil =>
                cases ws with
                | nil => exact absurd hp.length_le (by simp [joinWith])
                | cons u us =>
                  have hune := (hw u (by simp)).1
                  refine ht [] _ u us (by rw [hv]; rfl) ⟨by simp, ?_⟩
                  have h3 := (List.cons_prefix_cons.1 (List.cons_prefix_cons.1 hp).2).2
                  have hh := join_head u us hune
                  rw [← hh]
                  cases hq : joinWith cs!" " (u :: us) with
                  | nil =>
                    have h4 : cs!"*" <+: joinWith cs!" " (u :: us) := h3
                    rw [hq] at h4; exact absurd h4.length_le (by simp)
                  | cons q qs =>
                    have h4 : cs!"*" <+: joinWith cs!" " (u :: us) := h3
                    rw [hq] at h4
                    rw [← (List.cons_prefix_cons.1 h4).1]
                    rfl
              | cons y2 ys =>
                have hj : joinWith cs!" " (('*' :: y2 :: ys) :: ws) = '*' :: y2 :: (joinWith cs!" " (('*' :: y2 :: ys) :: ws)).drop 2 := by
                  cases ws <;> simp [joinWith]
                rw [hj] at hp
                have := (List.cons_prefix_cons.1 (List.cons_prefix_cons.1 hp).2).1
                have hy2 := hvsp y2 (by rw [hv]; simp)
                rw [← this] at hy2
                exact absurd hy2 (by decide)
          · rw [if_neg hc, replaceAll_nomatch, replaceAll_nomatch, ih']
            · simp
            · intro hp
              have := (List.cons_prefix_cons.1 hp).1
              exact absurd this (by decide)
            · intro hp
              have h1 := List.cons_prefix_cons.1 hp
              have h2 := (List.cons_prefix_cons.1 (List.cons_prefix_cons.1 h1.2).2).1
              exact hc ⟨by simp [← h1.1], by simp [← h2]⟩

theorem cleanField_text {ws : List Str} {f : Str} (h : FieldText ws f) (hw : ∀ w ∈ ws, Wordish w) (ht : NoTriple ws) :
    cleanField f = glue ws := by
  unfold cleanField collapse
  rw [splitWs_field h hw]
  exact replaceStars_join ws (fun w hm => ⟨(hw w hm).1, (hw w hm).2.1⟩) ht

end Verif
