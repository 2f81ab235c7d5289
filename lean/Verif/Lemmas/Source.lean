import Verif.Spec.Source
import Verif.Lemmas.Utf8
import Verif.Lemmas.Str
import Mathlib.Data.List.Forall2
/-! # Source files as bytes and as text -/
set_option autoImplicit false

namespace Verif
open Spec

/-! ## Lines -/

theorem nlLines_other (c : Char) (s : Str) (hc : c ≠ '\n') : nlLines (c :: s) = match nlLines s with
    | [] => [[c]]
    | l :: ls => (c :: l) :: ls := by
  simp only [nlLines, linesOf]
  rw [if_neg (by simpa using hc)]
  cases linesOf (fun c => c == '\n') s <;> rfl

theorem isLines_unique (s : Str) : ∀ (ls : List Str), IsLines ls s → ls = nlLines s := by
  induction s with
  | nil =>
    intro ls h
    cases ls with
    | nil => rfl
    | cons l ls =>
      have h1 := h.all
      rw [List.flatten_cons, List.append_eq_nil_iff] at h1
      exact absurd (by rw [h1.1]; simp) h.some
  | cons c s ih =>
    intro ls h
    cases ls with
    | nil => cases h.all
    | cons l ls =>
      cases l with
      | nil => exact absurd (by simp) h.some
      | cons d l =>
        have h1 := h.all
        simp only [List.flatten_cons, List.cons_append, List.cons.injEq] at h1
        obtain ⟨rfl, h1⟩ := h1
        have hs : [] ∉ ls := fun hm => h.some (List.mem_cons_of_mem _ hm)
        have hsi : ∀ x ∈ ls, '\n' ∉ x.dropLast := fun x hx => h.single x (List.mem_cons_of_mem _ hx)
        have hen : ∀ x ∈ ls.dropLast, x.getLast? = some '\n' := by
          intro x hx
          refine h.ended x ?_
          cases ls with
          | nil => cases hx
          | cons y ys => exact List.mem_cons_of_mem _ hx
        by_cases hc : d = '\n'
        · have hl : l = [] := by
            cases l with
            | nil => rfl
            | cons e l =>
              refine absurd ?_ (h.single _ List.mem_cons_self)
              simp [hc]
          subst hl
          have := ih ls ⟨by simpa using h1, hs, hsi, hen⟩
          subst hc
          rw [this]
          rfl
        · have e := nlLines_other d s hc
          cases l with
          | nil =>
            have hls : ls = [] := by
              cases ls with
              | nil => rfl
              | cons y ys =>
                have := h.ended [d] (by simp)
                simp only [List.getLast?_singleton, Option.some.injEq] at this
                exact absurd this hc
            subst hls
            rw [e, ← ih [] ⟨by simpa using h1, by simp, by simp, by simp⟩]
          | cons x l =>
            have := ih ((x :: l) :: ls) ⟨by simpa using h1, by
                intro hm
                rcases List.mem_cons.1 hm with hm | hm
                · cases hm
                · exact hs hm, by
                intro y hy
                rcases List.mem_cons.1 hy with rfl | hy
                · have := h.single _ List.mem_cons_self
                  rw [List.dropLast_cons_of_ne_nil (by simp)] at this
                  exact fun hm => this (List.mem_cons_of_mem _ hm)
                · exact hsi y hy, by
                intro y hy
                cases ls with
                | nil => cases hy
                | cons z zs =>
                  rcases List.mem_cons.1 hy with rfl | hy
                  · have := h.ended _ List.mem_cons_self
                    simpa using this
                  · exact hen y hy⟩
            rw [e, ← this]

theorem nlLines_isLines (s : Str) : IsLines (nlLines s) s := by
  induction s with
  | nil => exact ⟨rfl, by simp [nlLines, linesOf], by simp [nlLines, linesOf], by simp [nlLines, linesOf]⟩
  | cons c s ih =>
    by_cases hc : c = '\n'
    · have e : nlLines (c :: s) = [c] :: nlLines s := by simp only [nlLines, linesOf]; rw [if_pos (by simpa using hc)]
      rw [e]
      refine ⟨by rw [List.flatten_cons, ih.all]; rfl, ?_, ?_, ?_⟩
      · intro hm
        rcases List.mem_cons.1 hm with hm | hm
        · cases hm
        · exact ih.some hm
      · intro l hl
        rcases List.mem_cons.1 hl with rfl | hl
        · simp
        · exact ih.single l hl
      · intro l hl
        cases hn : nlLines s with
        | nil => rw [hn] at hl; cases hl
        | cons y ys =>
          rw [hn] at hl
          rcases List.mem_cons.1 hl with rfl | hl
          · rw [hc]; rfl
          · exact ih.ended l (by rw [hn]; exact hl)
    · have e := nlLines_other c s hc
      rw [e]
      cases hn : nlLines s with
      | nil =>
        have := ih.all
        rw [hn] at this
        subst this
        exact ⟨rfl, by simp, by simp, by simp⟩
      | cons l ls =>
        rw [hn] at ih
        have hne : l ≠ [] := fun h => ih.some (by rw [h]; simp)
        refine ⟨by rw [← ih.all]; rfl, ?_, ?_, ?_⟩
        · intro hm
          rcases List.mem_cons.1 hm with hm | hm
          · cases hm
          · exact ih.some (List.mem_cons_of_mem _ hm)
        · intro x hx
          rcases List.mem_cons.1 hx with rfl | hx
          · rw [List.dropLast_cons_of_ne_nil hne]
            intro hm
            rcases List.mem_cons.1 hm with hm | hm
            · exact hc hm.symm
            · exact ih.single l List.mem_cons_self hm
          · exact ih.single x (List.mem_cons_of_mem _ hx)
        · intro x hx
          cases ls with
          | nil => cases hx
          | cons y ys =>
            rcases List.mem_cons.1 hx with rfl | hx
            · have := ih.ended l List.mem_cons_self
              cases l with
              | nil => exact absurd rfl hne
              | cons z zs => simpa using this
            · exact ih.ended x (List.mem_cons_of_mem _ hx)

/-! ## Encoded characters -/

theorem encodeChar_high (c : Char) : (c.toNat ≤ 0x7f ∧ String.utf8EncodeChar c = [UInt8.ofNat c.toNat]) ∨
    (0x7f < c.toNat ∧ ∀ b ∈ String.utf8EncodeChar c, 0x80 ≤ b.toNat) := by
  rcases encodeChar_cases c with h | ⟨h1, h2, h3⟩ | ⟨h1, h2, h3⟩ | ⟨h1, h3⟩
  · exact .inl h
  · refine .inr ⟨h1, ?_⟩
    rw [h3]
    intro b hb
    simp only [List.mem_cons, List.not_mem_nil, or_false] at hb
    rcases hb with rfl | rfl <;> rw [byte_toNat _ (by omega)] <;> omega
  · refine .inr ⟨by omega, ?_⟩
    rw [h3]
    intro b hb
    simp only [List.mem_cons, List.not_mem_nil, or_false] at hb
    rcases hb with rfl | rfl | rfl <;> rw [byte_toNat _ (by omega)] <;> omega
  · refine .inr ⟨by omega, ?_⟩
    have := char_range c
    rw [h3]
    intro b hb
    simp only [List.mem_cons, List.not_mem_nil, or_false] at hb
    rcases hb with rfl | rfl | rfl | rfl <;> rw [byte_toNat _ (by omega)] <;> omega

theorem encoded_nil : encoded [] = [] := rfl
theorem encoded_cons (c : Char) (s : Str) : encoded (c :: s) = String.utf8EncodeChar c ++ encoded s := rfl
theorem encoded_append (s t : Str) : encoded (s ++ t) = encoded s ++ encoded t := List.flatMap_append

theorem encoded_inj (s t : Str) (h : encoded s = encoded t) : s = t := by
  have h1 := (decodeUtf8_iff _ s).2 (h : s.flatMap String.utf8EncodeChar = encoded t)
  rw [decodeUtf8_encode t |> (show decodeUtf8 (encoded t) = .ok t from ·)] at h1
  injection h1 with h1
  exact h1.symm

theorem decode_encoded (s : Str) : decodeUtf8 (encoded s) = .ok s := decodeUtf8_encode s

theorem char_of_toNat {c d : Char} (h : c.toNat = d.toNat) : c = d := by
  rw [← Char.ofNat_toNat c, h, Char.ofNat_toNat]

/-- lines of bytes without an end in them, prepended -/
theorem linesOf_pre {α : Type} (p : α → Bool) (u : List α) (hu : ∀ x ∈ u, p x = false) (hne : u ≠ []) (v : List α) :
    linesOf p (u ++ v) = match linesOf p v with
      | [] => [u]
      | l :: ls => (u ++ l) :: ls := by
  induction u with
  | nil => exact absurd rfl hne
  | cons x u ih =>
    have hx : p x = false := hu x (by simp)
    cases u with
    | nil =>
      simp only [List.cons_append, List.nil_append, linesOf, hx, Bool.false_eq_true, if_false]
      cases linesOf p v <;> rfl
    | cons y u =>
      rw [List.cons_append, linesOf, ih (fun z hz => hu z (List.mem_cons_of_mem _ hz)) (by simp)]
      simp only [hx, Bool.false_eq_true, if_false]
      cases linesOf p v <;> rfl

theorem blines_encoded (s : Str) : blines (encoded s) = (nlLines s).map encoded := by
  induction s with
  | nil => rfl
  | cons c s ih =>
    rw [encoded_cons]
    by_cases hc : c = '\n'
    · subst hc
      have e : nlLines ('\n' :: s) = ['\n'] :: nlLines s := rfl
      rw [e, List.map_cons, ← ih]
      rfl
    · have hb : ∀ b ∈ String.utf8EncodeChar c, (b == (10 : UInt8)) = false := by
        intro b hb
        rw [beq_eq_false_iff_ne]
        rintro rfl
        rcases encodeChar_high c with ⟨h1, h2⟩ | ⟨h1, h2⟩
        · rw [h2, List.mem_singleton] at hb
          have := congrArg UInt8.toNat hb
          rw [byte_toNat _ (by omega)] at this
          exact hc (char_of_toNat this.symm)
        · have := h2 _ hb
          revert this
          decide
      unfold blines at ih ⊢
      rw [linesOf_pre _ _ hb (encodeChar_ne_nil c), ih]
      have e := nlLines_other c s hc
      rw [e]
      cases nlLines s with
      | nil => simp [encoded]
      | cons l ls => rfl

/-! ## Binary mode -/

theorem goodLocation_bytes (fs : BFiles) (gs : Files) (h : SameFiles fs gs) (file : Path) (line : Nat) (a : Arch) (sc : Syscall) :
    goodLocationB fs file line a sc = goodLocationAt gs file line a sc := by
  unfold goodLocationB goodLocationAt
  rcases h file with ⟨h1, h2⟩ | ⟨bs, s, ls, h1, h2, ⟨rfl, -⟩, h4⟩
  · rw [h1, h2]
  · rw [h1, h2, isLines_unique s ls h4]
    simp only [blines_encoded, List.length_map, ← List.map_drop]
    split
    · rfl
    · cases (nlLines s).drop (line - 1) with
      | nil => rfl
      | cons l t => simp only [List.map_cons, decode_encoded, bind, Except.bind]

theorem byteSpace_high (b : UInt8) (h : 0x80 ≤ b.toNat) : isByteSpace b = false := by
  unfold isByteSpace
  simp
  omega

theorem byteSpace_ascii (c : Char) (h : c.toNat ≤ 0x7f) : isByteSpace (UInt8.ofNat c.toNat) = isBSpace c := by
  unfold isByteSpace isBSpace
  rw [byte_toNat _ (by omega)]

theorem byteRstrip_append (u : Bytes) (b : UInt8) :
    byteRstrip (u ++ [b]) = if isByteSpace b then byteRstrip u else u ++ [b] := by
  unfold byteRstrip
  rw [List.reverse_append, List.reverse_singleton, List.singleton_append, List.dropWhile_cons]
  split
  · rfl
  · simp

theorem brstrip_append' (s : Str) (c : Char) : brstrip (s ++ [c]) = if isBSpace c then brstrip s else s ++ [c] := by
  unfold brstrip
  rw [List.reverse_append, List.reverse_singleton, List.singleton_append, List.dropWhile_cons]
  split
  · rfl
  · simp

theorem byteRstrip_encoded (s : Str) : byteRstrip (encoded s) = encoded (brstrip s) := by
  generalize hn : s.length = n
  induction n generalizing s with
  | zero => rw [List.length_eq_zero_iff.1 hn]; rfl
  | succ n ih0 =>
    obtain ⟨s, c, rfl⟩ : ∃ t c, s = t ++ [c] := by
      cases s with
      | nil => cases hn
      | cons x xs => exact ⟨_, _, (List.dropLast_concat_getLast (List.cons_ne_nil x xs)).symm⟩
    have ih := ih0 s (by simpa using hn)
    rw [encoded_append, brstrip_append']
    have e1 : encoded [c] = String.utf8EncodeChar c := by simp [encoded]
    rw [e1]
    rcases encodeChar_high c with ⟨h1, h2⟩ | ⟨h1, h2⟩
    · rw [h2, byteRstrip_append, byteSpace_ascii c h1]
      split
      · exact ih
      · rw [encoded_append, e1, h2]
    · have hs : isBSpace c = false := by unfold isBSpace; simp; omega
      rw [hs]
      obtain ⟨u, b, hu⟩ : ∃ u b, String.utf8EncodeChar c = u ++ [b] :=
        ⟨_, _, (List.dropLast_concat_getLast (encodeChar_ne_nil c)).symm⟩
      have hb : isByteSpace b = false := byteSpace_high b (h2 b (by rw [hu]; simp))
      rw [hu, ← List.append_assoc, byteRstrip_append, hb]
      simp only [Bool.false_eq_true, if_false]
      rw [encoded_append, e1, hu, List.append_assoc]

theorem head_encoded (l : Str) :
    (l = [] ∧ (encoded l).head? = none) ∨ ∃ c b, l.head? = some c ∧ (encoded l).head? = some b ∧
      isByteSpace b = isBSpace c ∧ (b = 35 ↔ c = '#') := by
  cases l with
  | nil => exact .inl ⟨rfl, rfl⟩
  | cons c l =>
    right
    rw [encoded_cons]
    rcases encodeChar_high c with ⟨h1, h2⟩ | ⟨h1, h2⟩
    · refine ⟨c, UInt8.ofNat c.toNat, rfl, by rw [h2]; rfl, byteSpace_ascii c h1, ?_⟩
      constructor
      · intro h
        have := congrArg UInt8.toNat h
        rw [byte_toNat _ (by omega)] at this
        exact char_of_toNat this
      · rintro rfl; rfl
    · cases he : String.utf8EncodeChar c with
      | nil => exact absurd he (encodeChar_ne_nil c)
      | cons b bs =>
        have hb := h2 b (by rw [he]; simp)
        refine ⟨c, b, rfl, rfl, ?_, ?_⟩
        · rw [byteSpace_high b hb]
          unfold isBSpace
          simp
          omega
        · constructor
          · rintro rfl; exact absurd hb (by decide)
          · rintro rfl; exact absurd h1 (by decide)

theorem signatureAbove_bytes (ls : List Str) (j : Nat) : signatureAboveB (ls.map encoded) j = signatureAbove ls j := by
  induction j with
  | zero => rfl
  | succ j ih =>
    simp only [signatureAboveB, signatureAbove, List.getElem?_map]
    cases ls[j]? with
    | none => rfl
    | some l =>
      simp only [Option.map_some]
      rcases head_encoded l with ⟨h1, h2⟩ | ⟨c, b, h1, h2, h3, h4⟩
      · rw [h2, h1]; rfl
      · rw [h1, h2]
        simp only [h3, ih]
        by_cases hc : c = '#'
        · rw [h4.2 hc, hc]; rfl
        · simp only [if_neg hc, if_neg (fun h => hc (h4.1 h))]

theorem encoded_single (s : Str) (c : Char) (h : c.toNat ≤ 0x7f) : encoded s = [UInt8.ofNat c.toNat] ↔ s = [c] := by
  have e : encoded [c] = [UInt8.ofNat c.toNat] := by
    rcases encodeChar_high c with ⟨-, h2⟩ | ⟨h1, -⟩
    · simp [encoded, h2]
    · omega
  rw [← e]
  exact ⟨encoded_inj s [c], fun h => by rw [h]⟩

theorem adjustGo_bytes (ls : List Str) (line i : Nat) : adjustGoB (ls.map encoded) line i = adjustGo ls line i := by
  induction i with
  | zero => rfl
  | succ i ih =>
    simp only [adjustGoB, adjustGo, List.getElem?_map]
    cases ls[i]? with
    | none => rfl
    | some l =>
      simp only [Option.map_some, byteRstrip_encoded, signatureAbove_bytes, ih]
      have h1 : encoded (brstrip l) = [125] ↔ brstrip l = cs!"}" := encoded_single _ '}' (by decide)
      have h2 : encoded (brstrip l) = [123] ↔ brstrip l = cs!"{" := encoded_single _ '{' (by decide)
      simp only [h1, h2]
      cases signatureAbove ls i <;> rfl

theorem adjustLine_bytes (fs : BFiles) (gs : Files) (h : SameFiles fs gs) (file : Path) (line : Nat) :
    adjustLineB fs file line = adjustLine gs file line := by
  unfold adjustLineB adjustLine
  rcases h file with ⟨h1, h2⟩ | ⟨bs, s, ls, h1, h2, ⟨rfl, -⟩, h4⟩
  · rw [h1, h2]
  · rw [h1, h2, isLines_unique s ls h4]
    simp only [blines_encoded, adjustGo_bytes]

/-! ## Text mode -/

theorem decodePart_skip (n : Nat) (pre t : Bytes) (h : pre.length = n) : decodePart n (pre ++ t) = decodePart 0 t := by
  induction n generalizing pre with
  | zero => rw [List.length_eq_zero_iff.1 h]; rfl
  | succ n ih =>
    cases pre with
    | nil => cases h
    | cons b pre => exact ih pre (by simpa using h)

theorem decodePart_char (c : Char) (t : Bytes) :
    decodePart 0 (String.utf8EncodeChar c ++ t) = (c :: (decodePart 0 t).1, (decodePart 0 t).2) := by
  have hu := utf8Char_encode c t
  cases he : String.utf8EncodeChar c with
  | nil => exact absurd he (encodeChar_ne_nil c)
  | cons b bs =>
    rw [he] at hu
    simp only [List.cons_append] at hu ⊢
    simp only [decodePart, hu, List.length_cons, Nat.add_sub_cancel]
    rw [decodePart_skip _ bs t rfl, Char.ofNat_toNat]

theorem decodePart_encoded (s : Str) (t : Bytes) :
    decodePart 0 (encoded s ++ t) = (s ++ (decodePart 0 t).1, (decodePart 0 t).2) := by
  induction s with
  | nil => rfl
  | cons c s ih => rw [encoded_cons, List.append_assoc, decodePart_char, ih]; rfl

theorem noStray_tail {c : Char} {s : Str} (h : NoStray (c :: s)) : NoStray s := by
  intro u v e
  exact h (c :: u) v (by rw [e]; rfl)

theorem strip_append_spaces (x w : Str) (hw : ∀ c ∈ w, isSpace c = true) : strip (x ++ w) = strip x := by
  by_cases hx : ∀ c ∈ x, isSpace c = true
  · unfold strip
    rw [lstrip_all_space x hx, lstrip_all_space (x ++ w) (fun c hc => (List.mem_append.1 hc).elim (hx c) (hw c))]
  · have : lstrip (x ++ w) = lstrip x ++ w := by
      clear hw
      induction x with
      | nil => exact absurd (by simp) hx
      | cons c x ih =>
        cases hc : isSpace c with
        | false => rw [List.cons_append, lstrip_of_head _ _ hc, lstrip_of_head _ _ hc]; rfl
        | true =>
          have e : ∀ t, lstrip (c :: t) = lstrip t := fun t => by unfold lstrip; rw [List.dropWhile_cons_of_pos hc]
          rw [List.cons_append, e, e]
          exact ih fun h => hx fun d hd => (List.mem_cons.1 hd).elim (fun h => h ▸ hc) (h d)
    unfold strip
    rw [this, rstrip_append_spaces _ _ hw]

/-- the same line, but for a carriage return -/
def SameLine (l l' : Str) : Prop := l' = l ∨ ∃ x, l = x ++ cs!"\r\n" ∧ l' = x ++ cs!"\n"

theorem sameLine_strip {l l' : Str} (h : SameLine l l') : strip l' = strip l := by
  rcases h with rfl | ⟨x, rfl, rfl⟩
  · rfl
  · rw [strip_append_spaces x _ (by decide), strip_append_spaces x _ (by decide)]

theorem sameLine_cons {l l' : Str} (c : Char) (h : SameLine l l') : SameLine (c :: l) (c :: l') := by
  rcases h with rfl | ⟨x, rfl, rfl⟩
  · exact .inl rfl
  · exact .inr ⟨c :: x, rfl, rfl⟩

theorem nlLines_nl (s : Str) : nlLines ('\n' :: s) = ['\n'] :: nlLines s := rfl

theorem universal_lines (s : Str) (h : NoStray s) :
    List.Forall₂ SameLine (nlLines s) (nlLines (universal s)) := by
  fun_induction universal s with
  | case1 => exact .nil
  | case2 s ih =>
    have e : nlLines ('\r' :: '\n' :: s) = cs!"\r\n" :: nlLines s := by
      rw [nlLines_other _ _ (by decide), nlLines_nl]
    rw [e, nlLines_nl]
    exact .cons (.inr ⟨[], rfl, rfl⟩) (ih (noStray_tail (noStray_tail h)))
  | case3 s hs ih =>
    obtain ⟨t, ht⟩ := h [] s rfl
    exact absurd ht (hs t)
  | case4 c s h1 h2 ih =>
    have ih := ih (noStray_tail h)
    by_cases hc : c = '\n'
    · subst hc
      rw [nlLines_nl, nlLines_nl]
      exact .cons (.inl rfl) ih
    · rw [nlLines_other _ _ hc, nlLines_other _ _ hc]
      generalize nlLines s = A at ih ⊢
      generalize nlLines (universal s) = B at ih ⊢
      cases ih with
      | nil => exact .cons (.inl rfl) .nil
      | cons h3 h4 => exact .cons (sameLine_cons c h3) h4

theorem skipLines_ok (n : Nat) (ls : List Str) :
    skipLines n (ls.map .ok) = if ls.length < n then .error .stopIteration else .ok ((ls.drop n).map .ok) := by
  induction n generalizing ls with
  | zero => simp [skipLines]
  | succ n ih =>
    cases ls with
    | nil => simp [skipLines]
    | cons l ls =>
      simp only [List.map_cons, skipLines, bind, Except.bind, ih, List.length_cons, Nat.add_lt_add_iff_right, List.drop_succ_cons]

theorem readSigLoop_same (A B : List Str) (h : List.Forall₂ SameLine A B) : ∀ sig, readSigLoopB sig (B.map .ok) = readSigLoop sig A := by
  induction h with
  | nil => intro sig; rfl
  | cons h1 _ ih =>
    intro sig
    simp only [List.map_cons, readSigLoopB, readSigLoop, bind, Except.bind, sameLine_strip h1, ih]

theorem forall2_drop {α β : Type} {R : α → β → Prop} {A : List α} {B : List β} (h : List.Forall₂ R A B) (n : Nat) :
    List.Forall₂ R (A.drop n) (B.drop n) := by
  induction h generalizing n with
  | nil => simp
  | cons h1 h2 ih =>
    cases n with
    | zero => exact .cons h1 h2
    | succ n => exact ih n

theorem forall2_len {α β : Type} {R : α → β → Prop} {A : List α} {B : List β} (h : List.Forall₂ R A B) : A.length = B.length := by
  induction h with
  | nil => rfl
  | cons _ _ ih => simp [ih]

theorem openedLines_sound (early : Nat → Bool) (s : Str) : openedLines early (encoded s) = (nlLines (universal s)).map .ok := by
  have := decodePart_encoded s []
  rw [List.append_nil] at this
  unfold openedLines
  rw [this]
  simp [decodePart]

theorem signature_bytes (early : Nat → Bool) (bs : Bytes) (s : Str) (ls : List Str) (h : Sound bs s) (hl : IsLines ls s)
    (line : Nat) (big : Bool) : signatureFromSourceB early bs line big = signatureFromSource ls line big := by
  obtain ⟨rfl, hn⟩ := h
  rw [isLines_unique s ls hl]
  have hf := universal_lines s hn
  unfold signatureFromSourceB signatureFromSource readSigText
  rw [openedLines_sound, skipLines_ok, ← forall2_len hf]
  by_cases hlt : (nlLines s).length < line - 1
  · rw [if_pos hlt, if_pos hlt]; rfl
  · rw [if_neg hlt, if_neg hlt]
    simp only [bind, Except.bind]
    have hd := forall2_drop hf (line - 1)
    generalize (nlLines s).drop (line - 1) = A at hd ⊢
    generalize (nlLines (universal s)).drop (line - 1) = B at hd ⊢
    cases hd with
    | nil => rfl
    | cons h1 h2 => simp only [List.map_cons, sameLine_strip h1, readSigLoop_same _ _ h2]

end Verif
