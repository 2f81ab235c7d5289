import Verif.Lemmas.Source
import Verif.Props.Location
/-! # C115: odd bytes in source files -/
set_option autoImplicit false

namespace Verif
open Spec

/-- C115: whether a line is a definition depends on the bytes of that line only. -/
theorem C115_line_only (fs fs' : BFiles) (file file' : Path) (bs bs' l : Bytes) (line line' : Nat) (a : Arch) (sc : Syscall)
    (h : fs file = some bs) (h' : fs' file' = some bs') (hl : (blines bs)[line - 1]? = some l)
    (hl' : (blines bs')[line' - 1]? = some l) : goodLocationB fs file line a sc = goodLocationB fs' file' line' a sc := by
  have key : ∀ (fs : BFiles) (file : Path) (bs : Bytes) (line : Nat), fs file = some bs → (blines bs)[line - 1]? = some l →
      goodLocationB fs file line a sc = (decodeUtf8 l).bind fun d =>
        .ok (goodDefinition a d sc.origname || goodDefinition a d sc.name) := by
    intro fs file bs line h hl
    unfold goodLocationB
    rw [h]
    obtain ⟨hlt, -⟩ := List.getElem?_eq_some_iff.1 hl
    have hd : (blines bs).drop (line - 1) = l :: (blines bs).drop (line - 1 + 1) := by
      rw [List.drop_eq_getElem_cons hlt, (List.getElem?_eq_some_iff.1 hl).2]
    simp only [hd]
    rw [if_neg (by omega)]
    rfl
  rw [key fs file bs line h hl, key fs' file' bs' line' h' hl']

/-- C115: the line of the signature depends on the lines up to the given one only. -/
theorem C115_above_only (fs fs' : BFiles) (file file' : Path) (bs bs' : Bytes) (line : Nat)
    (h : fs file = some bs) (h' : fs' file' = some bs') (hl : (blines bs).take line = (blines bs').take line) :
    adjustLineB fs file line = adjustLineB fs' file' line := by
  have get : ∀ i, i < line → (blines bs)[i]? = (blines bs')[i]? := by
    intro i hi
    have := congrArg (fun x => x[i]?) hl
    simpa only [List.getElem?_take, hi, if_true] using this
  have above : ∀ i, i ≤ line → signatureAboveB (blines bs) i = signatureAboveB (blines bs') i := by
    intro i
    induction i with
    | zero => intro _; rfl
    | succ i ih => intro hi; simp only [signatureAboveB, get i hi, ih (by omega)]
  have go : ∀ i, i ≤ line → adjustGoB (blines bs) line i = adjustGoB (blines bs') line i := by
    intro i
    induction i with
    | zero => intro _; rfl
    | succ i ih => intro hi; simp only [adjustGoB, get i hi, ih (by omega), above i (by omega)]
  unfold adjustLineB
  rw [h, h']
  exact go line (Nat.le_refl _)

/-- C115, the part that holds: in files that are UTF-8 without stray carriage returns, the three readers see the same lines,
those of `Model/Location` and `Model/Signature`. -/
theorem C115_same_partial (fs : BFiles) (gs : Files) (h : SameFiles fs gs) (file : Path) (line : Nat) (a : Arch) (sc : Syscall) :
    goodLocationB fs file line a sc = goodLocationAt gs file line a sc ∧
    adjustLineB fs file line = adjustLine gs file line ∧
    ∀ bs, fs file = some bs → ∃ ls, gs file = some ls ∧
      ∀ early big, signatureFromSourceB early bs line big = signatureFromSource ls line big := by
  refine ⟨goodLocation_bytes fs gs h file line a sc, adjustLine_bytes fs gs h file line, ?_⟩
  intro bs hbs
  rcases h file with ⟨h1, -⟩ | ⟨bs', s, ls, h1, h2, h3, h4⟩
  · rw [hbs] at h1; cases h1
  · rw [hbs] at h1
    cases h1
    exact ⟨ls, h2, fun early big => signature_bytes early _ s ls h3 h4 line big⟩

/-- the signature read at a line that holds a whole definition is that of this definition -/
def ReadsDefinition (early : Nat → Bool) (bs : Bytes) : Prop :=
  ∀ (line : Nat) (l : Str) (big : Bool), 1 ≤ line → (blines bs)[line - 1]? = some (encoded l) → cs!")" <:+ strip l →
    signatureFromSourceB early bs line big = signatureOfText (strip l) big

/-- C115, the part that holds: signatures are read from the line that was checked, in files that are UTF-8 without stray
carriage returns. -/
theorem C115_signature_partial (early : Nat → Bool) (bs : Bytes) (s : Str) (h : Sound bs s) : ReadsDefinition early bs := by
  intro line l big h1 hl hend
  rw [signature_bytes early bs s _ h (nlLines_isLines s)]
  rw [h.1, blines_encoded, List.getElem?_map] at hl
  obtain ⟨l', hl', he⟩ := Option.map_eq_some_iff.1 hl
  rw [encoded_inj _ _ he] at hl'
  obtain ⟨hlt, hg⟩ := List.getElem?_eq_some_iff.1 hl'
  unfold signatureFromSource readSigText
  rw [if_neg (by omega), List.drop_eq_getElem_cons hlt, hg]
  have hw : endsWith (strip l) cs!")" = true := by
    obtain ⟨t, ht⟩ := hend
    rw [← ht]
    unfold endsWith
    simp
  have : ∀ ls, readSigLoop (strip l) ls = .ok (strip l) := by
    intro ls
    cases ls <;> simp only [readSigLoop, hw, if_true]
  simp only [this, bind, Except.bind]

/-- C115: a line that is not UTF-8 ends the extraction with UnicodeDecodeError when it is checked, definition or not. -/
theorem C115_bad_line (fs : BFiles) (file : Path) (bs l : Bytes) (line : Nat) (a : Arch) (sc : Syscall)
    (h : fs file = some bs) (hl : (blines bs)[line - 1]? = some l) (hb : ∀ s, encoded s ≠ l) :
    goodLocationB fs file line a sc = .error .unicode := by
  unfold goodLocationB
  rw [h]
  obtain ⟨hlt, hg⟩ := List.getElem?_eq_some_iff.1 hl
  simp only [List.drop_eq_getElem_cons hlt, hg]
  rw [if_neg (by omega), (decodeUtf8_error_iff l).2 hb]
  rfl

/-- a file with a carriage return in a comment -/
def strayBytes : Bytes := encoded cs!"/* a\rb */\nSYSCALL_DEFINE1(close, int, fd)\nSYSCALL_DEFINE2(open, int, how, int, why)\n"

/-- a file with `é` in Latin-1 in a comment -/
def latinBytes : Bytes := encoded cs!"/* caf" ++ [0xe9] ++ encoded cs!" */\nSYSCALL_DEFINE2(open, int, how, int, why)\n"

def oneFile (bs : Bytes) : BFiles := fun p => if p = smallFile then some bs else none

def openSc : Syscall := Syscall.new (some 0) 0 cs!"open" cs!"open" (smallSym cs!"__x64_sys_open" 0x1000 16) none

/-- C115 does not hold of the code: after a carriage return alone, text lines are counted differently, and the signature of
another syscall is read. -/
theorem C115_carriage_return_refuted (early : Nat → Bool) :
    goodLocationB (oneFile strayBytes) smallFile 3 x64Arch openSc = .ok true ∧
    signatureFromSourceB early strayBytes 3 false = .ok (some [cs!"int fd"]) ∧
    ¬ ReadsDefinition early strayBytes := by
  have h2 : signatureFromSourceB early strayBytes 3 false = .ok (some [cs!"int fd"]) := by
    have e : openedLines early strayBytes = [.ok cs!"/* a\n", .ok cs!"b */\n", .ok cs!"SYSCALL_DEFINE1(close, int, fd)\n",
      .ok cs!"SYSCALL_DEFINE2(open, int, how, int, why)\n"] := by
      unfold strayBytes
      rw [openedLines_sound]
      decide +kernel
    unfold signatureFromSourceB
    rw [e]
    decide +kernel
  refine ⟨by decide +kernel, h2, ?_⟩
  intro h
  have h1 := h 3 cs!"SYSCALL_DEFINE2(open, int, how, int, why)\n" false (by decide) (by decide +kernel) (by decide +kernel)
  rw [h2] at h1
  revert h1
  decide +kernel

/-- C115 does not hold of the code: a byte that is not UTF-8 in a comment above the definition does not hinder checking it, but
reading its signature raises UnicodeDecodeError. -/
theorem C115_not_utf8_refuted (early : Nat → Bool) :
    goodLocationB (oneFile latinBytes) smallFile 2 x64Arch openSc = .ok true ∧
    signatureFromSourceB early latinBytes 2 false = .error .unicode ∧ ¬ ReadsDefinition early latinBytes := by
  have h2 : signatureFromSourceB early latinBytes 2 false = .error .unicode := by
    have e : decodePart 0 latinBytes = (cs!"/* caf", false) := by decide +kernel
    have e' : completeLines cs!"/* caf" = [] := by decide +kernel
    unfold signatureFromSourceB openedLines
    rw [e]
    simp only [e']
    rfl
  refine ⟨by decide +kernel, h2, ?_⟩
  intro h
  have h1 := h 2 cs!"SYSCALL_DEFINE2(open, int, how, int, why)\n" false (by decide) (by decide +kernel) (by decide +kernel)
  rw [h2] at h1
  revert h1
  decide +kernel

/-- `C115_line_only`, `C115_above_only`: the two files have a definition in common; and the first lines of the odd file are those
of another one -/
example : (blines strayBytes)[3 - 1]? = (blines latinBytes)[2 - 1]? ∧ (blines latinBytes)[2 - 1]? ≠ none ∧
    (blines strayBytes).take 2 = (blines (encoded cs!"/* a\rb */\nSYSCALL_DEFINE1(close, int, fd)\n{\n")).take 2 := by
  decide +kernel

/-- the small file as bytes, with `\r\n` as the end of the second line -/
def crlfText : Str := cs!"#include <x.h>\nSYSCALL_DEFINE1(open, int, fd)\r\n{\n\treturn 0; /* é */\n}\n"

theorem crlf_noStray : NoStray crlfText := by
  have h : ∀ (s u v : Str), s = u ++ '\r' :: v → (s.zip s.tail).all (fun p => p.1 != '\r' || p.2 == '\n') = true →
      s.getLast? ≠ some '\r' → ∃ t, v = '\n' :: t := by
    intro s u
    induction u generalizing s with
    | nil =>
      rintro v rfl h1 h2
      cases v with
      | nil => exact absurd rfl h2
      | cons c v =>
        simp only [List.nil_append, List.tail_cons, List.zip_cons_cons, List.all_cons, bne_self_eq_false, Bool.false_or,
          Bool.and_eq_true, beq_iff_eq] at h1
        exact ⟨v, by rw [h1.1]⟩
    | cons d u ih =>
      rintro v rfl h1 h2
      refine ih (u ++ '\r' :: v) v rfl ?_ ?_
      · cases hu : u ++ '\r' :: v with
        | nil => simp at hu
        | cons e w =>
          rw [List.cons_append, hu] at h1
          simp only [List.tail_cons, List.zip_cons_cons, List.all_cons, Bool.and_eq_true] at h1
          exact h1.2
      · rw [List.cons_append] at h2
        intro hh
        refine h2 ?_
        rw [List.getLast?_cons, hh]
        rfl
  intro u v e
  exact h _ u v e (by decide +kernel) (by decide +kernel)

/-- `C115_same_partial`, `C115_signature_partial` -/
example : SameFiles (oneFile (encoded crlfText)) (fun p => if p = smallFile then some (nlLines crlfText) else none) ∧
    signatureFromSourceB (fun _ => false) (encoded crlfText) 2 false = .ok (some [cs!"int fd"]) := by
  refine ⟨?_, ?_⟩
  · intro p
    by_cases hp : p = smallFile
    · exact .inr ⟨_, crlfText, _, if_pos hp, if_pos hp, ⟨rfl, crlf_noStray⟩, nlLines_isLines _⟩
    · exact .inl ⟨if_neg hp, if_neg hp⟩
  · rw [C115_signature_partial _ _ crlfText ⟨rfl, crlf_noStray⟩ 2 cs!"SYSCALL_DEFINE1(open, int, fd)\r\n" false (by decide)
      (by decide +kernel) (by decide +kernel)]
    decide +kernel

/-- `C115_bad_line`: the comment -/
example : ∃ l, (blines latinBytes)[1 - 1]? = some l ∧ ∀ s, encoded s ≠ l :=
  ⟨_, rfl, (decodeUtf8_error_iff _).1 (by decide +kernel)⟩

end Verif
