import Verif.Model.Elf
import Verif.Lemmas.Utf8
import Verif.Lemmas.Regex
import Verif.Lemmas.Utils
import Verif.Spec.Elf
/-! Helper lemmas for ELF parsing. -/
set_option autoImplicit false

namespace Verif
open Spec

/-! ## integers in bytes -/

theorem leBytes_length (n v : Nat) : (leBytes n v).length = n := by
  induction n generalizing v with
  | zero => rfl
  | succ n ih => simp [leBytes, ih]

@[simp] theorem encUint_length (big : Bool) (n v : Nat) : (encUint big n v).length = n := by
  unfold encUint; split <;> simp [leBytes_length]

theorem leVal_leBytes (n v : Nat) : leVal (leBytes n v) = v % 256 ^ n := by
  induction n generalizing v with
  | zero => simp [leBytes, leVal, Nat.mod_one]
  | succ n ih =>
    simp only [leBytes, leVal, ih]
    rw [UInt8.toNat_ofNat', show v % 256 % 2 ^ 8 = v % 256 by omega]
    rw [Nat.pow_succ' (m := 256), Nat.mod_mul]

theorem uintOf_encUint (big : Bool) (n v : Nat) : uintOf big (encUint big n v) = v % 256 ^ n := by
  unfold uintOf encUint
  cases big <;> simp [leVal_leBytes]

theorem unpackUint_encUint (big : Bool) (n v : Nat) (h : v < 256 ^ n) :
    unpackUint big n (encUint big n v) = .ok v := by
  unfold unpackUint
  rw [if_pos (encUint_length _ _ _), uintOf_encUint, Nat.mod_eq_of_lt h]

theorem readAt_append (a b c : Bytes) (off n : Nat) (h1 : a.length = off) (h2 : b.length = n) :
    readAt (a ++ b ++ c) off n = b := by
  unfold readAt
  subst h1; subst h2
  simp

theorem leBytes_append (m n v : Nat) : leBytes (m + n) v = leBytes m v ++ leBytes n (v / 256 ^ m) := by
  induction m generalizing v with
  | zero => simp [leBytes]
  | succ m ih =>
    rw [Nat.succ_add]
    simp only [leBytes, ih, List.cons_append]
    rw [Nat.div_div_eq_div_mul, Nat.pow_succ']

/-! ## numerals -/

theorem natRepr_eq_toDigits (n : Nat) : natRepr n = Nat.toDigits 10 n := by
  induction n using Nat.strongRecOn with
  | ind n ih =>
    have hd : ∀ d, d < 10 → d.digitChar = digitChar10 d := by decide
    by_cases h : n < 10
    · rw [natRepr_lt h, Nat.toDigits_of_lt_base h, hd n h]
    · rw [natRepr_ge (by omega), ih (n / 10) (by omega)]
      have := Nat.toDigits_append_toDigits (b := 10) (n := n / 10) (d := n % 10) (by omega) (by omega) (by omega)
      rw [Nat.toDigits_of_lt_base (by omega : n % 10 < 10), hd _ (by omega)] at this
      rw [this]
      congr 1; omega

theorem natOfDigits_toDigits (n : Nat) : natOfDigits (Nat.toDigits 10 n) = n := by
  rw [← natRepr_eq_toDigits, natOfDigits_natRepr]

theorem natOfHex_append (a : Str) (c : Char) : natOfHex (a ++ [c]) = 16 * natOfHex a + hexVal c := by
  simp [natOfHex]

theorem hexVal_digitChar : ∀ d, d < 16 → hexVal d.digitChar = d := by decide

theorem natOfHex_toDigits (n : Nat) : natOfHex (Nat.toDigits 16 n) = n := by
  induction n using Nat.strongRecOn with
  | ind n ih =>
    by_cases h : n < 16
    · rw [Nat.toDigits_of_lt_base h]
      simp [natOfHex, hexVal_digitChar n h]
    · have := Nat.toDigits_append_toDigits (b := 16) (n := n / 16) (d := n % 16) (by omega) (by omega) (by omega)
      rw [show 16 * (n / 16) + n % 16 = n by omega] at this
      rw [← this, Nat.toDigits_of_lt_base (by omega : n % 16 < 16), natOfHex_append, ih _ (by omega),
        hexVal_digitChar _ (by omega)]
      omega

theorem natOfHex_zeros (k : Nat) (s : Str) : natOfHex (List.replicate k '0' ++ s) = natOfHex s := by
  unfold natOfHex
  rw [List.foldl_append]
  congr 1
  induction k with
  | zero => rfl
  | succ k ih => rw [List.replicate_succ, List.foldl_cons]; exact ih

/-! ## character classes -/

theorem isDigit_not_space (c : Char) (h : isDigit c = true) : isSpace c = false := by
  simp only [isDigit, Bool.and_eq_true, decide_eq_true_eq] at h
  simp only [isSpace, Bool.or_eq_false_iff, Bool.and_eq_false_iff, decide_eq_false_iff_not, beq_eq_false_iff_ne]
  omega

theorem isHexDigit_not_space (c : Char) (h : isHexDigit c = true) : isSpace c = false := by
  simp only [isHexDigit, Bool.and_eq_true, Bool.or_eq_true, decide_eq_true_eq] at h
  simp only [isSpace, Bool.or_eq_false_iff, Bool.and_eq_false_iff, decide_eq_false_iff_not, beq_eq_false_iff_ne]
  omega

theorem isWord_not_space (c : Char) (h : isWord c = true) : isSpace c = false := by
  simp only [isWord, Bool.and_eq_true, Bool.or_eq_true, decide_eq_true_eq, beq_iff_eq] at h
  simp only [isSpace, Bool.or_eq_false_iff, Bool.and_eq_false_iff, decide_eq_false_iff_not, beq_eq_false_iff_ne]
  omega

theorem char_le_iff (a b : Char) : a ≤ b ↔ a.toNat ≤ b.toNat := by
  rw [Char.le_def, UInt32.le_iff_toNat_le]; rfl

theorem hexDigit_iff (c : Char) : isHexDigit c = true ↔ hexDigit c := by
  simp only [hexDigit, char_le_iff, isHexDigit, Bool.or_eq_true, Bool.and_eq_true, decide_eq_true_eq]
  have h1 : ('0' : Char).toNat = 48 := rfl
  have h2 : ('9' : Char).toNat = 57 := rfl
  have h3 : ('a' : Char).toNat = 97 := rfl
  have h4 : ('f' : Char).toNat = 102 := rfl
  have h5 : ('A' : Char).toNat = 65 := rfl
  have h6 : ('F' : Char).toNat = 70 := rfl
  rw [h1, h2, h3, h4, h5, h6, or_assoc]

theorem upper_isWord (c : Char) (h : 'A' ≤ c ∧ c ≤ 'Z') : isWord c = true := by
  simp only [char_le_iff] at h
  have h5 : ('A' : Char).toNat = 65 := rfl
  have h6 : ('Z' : Char).toNat = 90 := rfl
  simp only [isWord, Bool.and_eq_true, Bool.or_eq_true, decide_eq_true_eq, beq_iff_eq]
  omega

theorem blanks_space {s : Str} (h : Blanks s) : ∀ c ∈ s, isSpace c = true := by
  intro c hc; rw [h.2 c hc]; decide

theorem head_of_class {p : Char → Bool} {s : Str} (hs : s ≠ []) (h : ∀ c ∈ s, p c = false) (t : Str) :
    ∀ y ys, s ++ t = y :: ys → p y = false := by
  intro y ys he
  cases s with
  | nil => exact absurd rfl hs
  | cons c s => simp at he; rw [← he.1]; exact h c (by simp)

/-! ## the symbol regex on a well-formed row -/

theorem reSp_greedy {α : Type} (prev : Option Char) (a b : Str) (caps : Caps) (k : St → Caps → Option α) (x : α)
    (ha : Blanks a) (hb : ∀ y ys, b = y :: ys → isSpace y = false) (hk : k ⟨lastOr prev a, b⟩ caps = some x) :
    reSp.go ⟨prev, a ++ b⟩ caps k = some x :=
  Re.go_plus_greedy _ _ _ _ _ _ _ ha.1 (blanks_space ha) hb hk

theorem grp_plus_greedy {α : Type} (n : Nat) (p : Char → Bool) (prev : Option Char) (a b : Str) (caps : Caps)
    (k : St → Caps → Option α) (x : α) (hne : a ≠ [])
    (ha : ∀ y ∈ a, p y = true) (hb : ∀ y ys, b = y :: ys → p y = false)
    (hk : k ⟨lastOr prev a, b⟩ ((n, a) :: caps) = some x) :
    (Re.grp n (.plus p)).go ⟨prev, a ++ b⟩ caps k = some x := by
  simp only [Re.go]
  apply Re.go_plus_greedy _ _ _ _ _ _ _ hne ha hb
  simpa using hk

/-- the tail `.+\s+(\S+)$` of the symbol expression picks the last blank-separated word -/
theorem tail_match (prev : Option Char) (mid sp name : Str) (caps : Caps)
    (hmid : mid ≠ [] ∧ ∀ c ∈ mid, c ≠ '\n') (hsp : Blanks sp)
    (hname : name ≠ [] ∧ ∀ c ∈ name, isSpace c = false) :
    ∃ st, (Re.cat [.plus notNewline, reSp, .grp 4 (.plus (fun c => !isSpace c)), .eol]).go ⟨prev, mid ++ sp ++ name⟩ caps
      (fun st caps => some (caps, st)) = some ((4, name) :: caps, st) := by
  obtain ⟨c, m, rfl⟩ : ∃ c m, mid = c :: m := by
    cases mid with
    | nil => exact absurd rfl hmid.1
    | cons c m => exact ⟨c, m, rfl⟩
  -- split the blanks at their last character
  obtain ⟨sp0, rfl⟩ : ∃ sp0, sp = sp0 ++ [' '] := by
    rcases List.eq_nil_or_concat sp with h | ⟨l, z, h⟩
    · exact absurd h hsp.1
    · rw [List.concat_eq_append] at h
      refine ⟨l, ?_⟩
      rw [h, hsp.2 z (by rw [h]; simp)]
  have hnl : ∀ y ∈ (m ++ sp0) ++ (' ' :: name), notNewline y = true := by
    intro y hy
    simp only [notNewline, bne_iff_ne, ne_eq]
    rintro rfl
    rcases List.mem_append.1 hy with hy | hy
    · rcases List.mem_append.1 hy with hy | hy
      · exact hmid.2 _ (by simp [hy]) rfl
      · have := hsp.2 '\n' (by simp [hy]); exact absurd this (by decide)
    · rcases List.mem_cons.1 hy with hy | hy
      · exact absurd hy (by decide)
      · have := hname.2 _ hy; exact absurd this (by decide)
  have hc : notNewline c = true := by
    simp only [notNewline, bne_iff_ne, ne_eq]
    exact hmid.2 c (by simp)
  refine ⟨⟨lastOr (lastOr (lastOr (some c) (m ++ sp0)) [' ']) name, []⟩, ?_⟩
  simp only [Re.cat, Re.plus, Re.go, List.cons_append, hc, if_true]
  rw [show m ++ (sp0 ++ [' ']) ++ name = (m ++ sp0) ++ (' ' :: name) by simp]
  refine starGo_last _ _ _ _ _ _ hnl ?_ ?_
  · have : (' ' :: name) = [' '] ++ name := rfl
    rw [this]
    have hgo := reSp_greedy (lastOr (some c) (m ++ sp0)) [' '] name caps
      (fun st caps => (Re.grp 4 (.plus (fun c => !isSpace c))).go st caps
        (fun st caps => Re.eol.go st caps (fun st caps => some (caps, st))))
      ((4, name) :: caps, ⟨lastOr (lastOr (lastOr (some c) (m ++ sp0)) [' ']) name, []⟩)
      ⟨by simp, by simp⟩ ?_ ?_
    · exact hgo
    · intro y ys he
      exact hname.2 y (by rw [he]; simp)
    · have := grp_plus_greedy 4 (fun c => !isSpace c) (lastOr (lastOr (some c) (m ++ sp0)) [' ']) name [] caps
        (fun st caps => Re.eol.go st caps (fun st caps => some (caps, st)))
        ((4, name) :: caps, ⟨lastOr (lastOr (lastOr (some c) (m ++ sp0)) [' ']) name, []⟩)
        hname.1 (fun y hy => by simp [hname.2 y hy]) (by simp) (by simp [Re.go])
      simpa using this
  · intro q u hu hlt
    have hu2 : u <:+ name := by
      rcases List.suffix_cons_iff.1 hu with h | h
      · rw [h] at hlt; simp at hlt
      · exact h
    cases u with
    | nil => simp [reSp, Re.plus, Re.go]
    | cons d u =>
      have : isSpace d = false := hname.2 d (hu2.subset (by simp))
      simp [reSp, Re.plus, Re.go, this]

theorem symbolRe_search (r : SymRow) (h : r.WF) :
    ∃ st, symbolRe.search r.print = some ([(4, r.name), (3, r.type), (2, r.size), (1, r.value)], st) := by
  obtain ⟨m, hm, hmn⟩ := h.mid
  have hsize : ∀ c ∈ r.size, isDigit c = true := fun c hc => (isDigit_iff c).2 (h.size.2 c hc)
  have hnum : ∀ c ∈ r.num, isDigit c = true := fun c hc => (isDigit_iff c).2 (h.num.2 c hc)
  have hval : ∀ c ∈ r.value, isHexDigit c = true := fun c hc => (hexDigit_iff c).2 (h.value.2 c hc)
  have htyp : ∀ c ∈ r.type, isWord c = true := fun c hc => upper_isWord c (h.type.2 c hc)
  have hsp : ∀ (s t : Str), Blanks s → ∀ (p : Char → Bool), p ' ' = false → ∀ y ys, s ++ t = y :: ys → p y = false := by
    intro s t hs p hp y ys he
    exact head_of_class hs.1 (fun c hc => by rw [hs.2 c hc]; exact hp) t y ys he
  have hmid : r.mid ≠ [] ∧ ∀ c ∈ r.mid, c ≠ '\n' := by
    rw [hm]
    refine ⟨by simp, ?_⟩
    rintro c hc rfl
    rcases List.mem_cons.1 hc with hc | hc
    · exact absurd hc (by decide)
    · exact hmn hc
  obtain ⟨st, htail⟩ := tail_match
    (lastOr (lastOr (lastOr (lastOr (lastOr (lastOr (lastOr (lastOr (lastOr none r.lead) r.num) [':']) r.sp1) r.value) r.sp2) r.size) r.sp3) r.type)
    r.mid r.sp4 r.name [(3, r.type), (2, r.size), (1, r.value)] hmid h.sp4 h.name
  refine ⟨st, ?_⟩
  unfold Re.search SymRow.print
  simp only [List.append_assoc]
  refine Re.searchFrom_skip _ _ _ _ _ ?_ ?_
  · intro pre c post q he
    have : c = ' ' := h.lead c (by rw [he]; simp)
    subst this
    simp [symbolRe, Re.cat, Re.plus, Re.go, isDigit]
  · unfold symbolRe
    rw [Re.cat]
    · rw [Re.go_seq]
      refine Re.go_plus_greedy _ _ _ _ _ _ _ h.num.1 hnum ?_ ?_
      · intro y ys he
        simp at he; rw [← he.1]; decide
      rw [Re.cat]
      · rw [Re.go_seq]
        rw [Re.go_lit]
        rw [Re.cat]
        · rw [Re.go_seq]
          refine reSp_greedy _ _ _ _ _ _ h.sp1 ?_ ?_
          · exact head_of_class h.value.1 (fun c hc => isHexDigit_not_space c (hval c hc)) _
          rw [Re.cat]
          · rw [Re.go_seq]
            refine grp_plus_greedy _ _ _ _ _ _ _ _ h.value.1 hval ?_ ?_
            · exact hsp _ _ h.sp2 _ (by decide)
            rw [Re.cat]
            · rw [Re.go_seq]
              refine reSp_greedy _ _ _ _ _ _ h.sp2 ?_ ?_
              · exact head_of_class h.size.1 (fun c hc => isDigit_not_space c (hsize c hc)) _
              rw [Re.cat]
              · rw [Re.go_seq]
                refine grp_plus_greedy _ _ _ _ _ _ _ _ h.size.1 hsize ?_ ?_
                · exact hsp _ _ h.sp3 _ (by decide)
                rw [Re.cat]
                · rw [Re.go_seq]
                  refine reSp_greedy _ _ _ _ _ _ h.sp3 ?_ ?_
                  · exact head_of_class h.type.1 (fun c hc => isWord_not_space c (htyp c hc)) _
                  rw [Re.cat]
                  · rw [Re.go_seq]
                    refine grp_plus_greedy _ _ _ _ _ _ _ _ h.type.1 htyp ?_ ?_
                    · intro y ys he
                      rw [hm] at he; simp at he; rw [← he.1]; decide
                    · simpa using htail
                  · simp
                · simp
              · simp
            · simp
          · simp
        · simp
      · simp
    · simp


/-! ## header -/

theorem parseElfHeader_encode (h : Header) (hw : h.WF) (rest : Bytes) :
    parseElfHeader (h.encode rest) =
      .ok ⟨h.bits32, h.big, h.eMachine, uintOf h.big (readAt (h.encode rest) 0x24 4)⟩ := by
  obtain ⟨hi, ht, hm, hv, hf, he, hp, hs⟩ := hw
  have h6 : readAt (h.encode rest) 0 6 =
      [0x7f, 0x45, 0x4c, 0x46, if h.bits32 then 1 else 2, if h.big then 2 else 1] := by
    simp [Header.encode, readAt]
  have hmach : readAt (h.encode rest) 0x12 2 = encUint h.big 2 h.eMachine := by
    have := readAt_append
      ([0x7f, 0x45, 0x4c, 0x46, if h.bits32 then 1 else 2, if h.big then 2 else 1] ++ h.identRest ++ encUint h.big 2 h.eType)
      (encUint h.big 2 h.eMachine)
      (encUint h.big 4 h.eVersion ++
        encUint h.big (if h.bits32 then 4 else 8) h.eEntry ++ encUint h.big (if h.bits32 then 4 else 8) h.ePhoff ++
        encUint h.big (if h.bits32 then 4 else 8) h.eShoff ++ encUint h.big 4 h.eFlags ++ rest) 0x12 2
      (by simp [hi]) (by simp)
    rw [← this]
    simp [Header.encode]
  have hlen : (readAt (h.encode rest) 0x24 4).length = 4 := by
    unfold readAt
    rw [List.length_take, List.length_drop]
    have : 40 ≤ (h.encode rest).length := by
      simp only [Header.encode, List.length_append, encUint_length, hi, List.length_cons, List.length_nil]
      split <;> omega
    omega
  have hmu : unpackUint h.big 2 (encUint h.big 2 h.eMachine) = .ok h.eMachine := unpackUint_encUint _ _ _ (by omega)
  have hfu : unpackUint h.big 4 (readAt (h.encode rest) 0x24 4) = .ok (uintOf h.big (readAt (h.encode rest) 0x24 4)) := by
    unfold unpackUint
    rw [if_pos hlen]
  unfold parseElfHeader
  rw [h6, hmach]
  revert hmu hfu
  generalize h.encode rest = d
  cases h.bits32 <;> cases h.big <;> intro hmu hfu <;>
    simp [hmu, hfu, bind, Except.bind]

theorem eflags_elf32 (h : Header) (hw : h.WF) (h32 : h.bits32 = true) (rest : Bytes) :
    uintOf h.big (readAt (h.encode rest) 0x24 4) = h.eFlags := by
  obtain ⟨hi, ht, hm, hv, hf, he, hp, hs⟩ := hw
  have : readAt (h.encode rest) 0x24 4 = encUint h.big 4 h.eFlags := by
    have := readAt_append
      ([0x7f, 0x45, 0x4c, 0x46, if h.bits32 then 1 else 2, if h.big then 2 else 1] ++ h.identRest ++ encUint h.big 2 h.eType ++
        encUint h.big 2 h.eMachine ++ encUint h.big 4 h.eVersion ++
        encUint h.big 4 h.eEntry ++ encUint h.big 4 h.ePhoff ++ encUint h.big 4 h.eShoff)
      (encUint h.big 4 h.eFlags) rest 0x24 4 (by simp [hi]) (by simp)
    rw [← this]
    simp [Header.encode, h32]
  rw [this, uintOf_encUint, Nat.mod_eq_of_lt (by omega)]

theorem eflags_elf64 (h : Header) (hw : h.WF) (h64 : h.bits32 = false) (rest : Bytes) :
    uintOf h.big (readAt (h.encode rest) 0x24 4) = if h.big then h.ePhoff % 2 ^ 32 else h.ePhoff / 2 ^ 32 := by
  obtain ⟨hi, ht, hm, hv, hf, he, hp, hs⟩ := hw
  rw [h64] at hp
  simp only [Bool.false_eq_true, if_false] at hp
  have key : ∀ a b : Bytes, encUint h.big 8 h.ePhoff = a ++ b → a.length = 4 → b.length = 4 →
      readAt (h.encode rest) 0x24 4 = b := by
    intro a b hab ha hb
    have := readAt_append
      ([0x7f, 0x45, 0x4c, 0x46, if h.bits32 then 1 else 2, if h.big then 2 else 1] ++ h.identRest ++ encUint h.big 2 h.eType ++
        encUint h.big 2 h.eMachine ++ encUint h.big 4 h.eVersion ++
        encUint h.big 8 h.eEntry ++ a)
      b (encUint h.big 8 h.eShoff ++ encUint h.big 4 h.eFlags ++ rest) 0x24 4 (by simp [hi, ha]) hb
    rw [← this]
    simp [Header.encode, h64, hab]
  cases hb : h.big with
  | false =>
    rw [hb] at key
    rw [key (leBytes 4 h.ePhoff) (leBytes 4 (h.ePhoff / 256 ^ 4)) (by simp only [encUint]; exact leBytes_append 4 4 _)
      (leBytes_length _ _) (leBytes_length _ _)]
    simp only [uintOf, Bool.false_eq_true, if_false, leVal_leBytes]
    omega
  | true =>
    rw [hb] at key
    rw [key (leBytes 4 (h.ePhoff / 256 ^ 4)).reverse (leBytes 4 h.ePhoff).reverse
      (by simp only [encUint, if_true]; rw [← List.reverse_append]; exact congrArg _ (leBytes_append 4 4 _))
      (by simp [leBytes_length]) (by simp [leBytes_length])]
    simp only [uintOf, if_true, List.reverse_reverse, leVal_leBytes]

theorem digitChar_hex (d : Nat) (h : d < 16) : isHexDigit d.digitChar = true := by
  revert d; decide

theorem toDigits16_hex (n : Nat) : ∀ c ∈ Nat.toDigits 16 n, isHexDigit c = true := by
  induction n using Nat.strongRecOn with
  | ind n ih =>
    by_cases h : n < 16
    · rw [Nat.toDigits_of_lt_base h]
      intro c hc
      rw [List.mem_singleton] at hc
      subst hc
      exact digitChar_hex n h
    · have := Nat.toDigits_append_toDigits (b := 16) (n := n / 16) (d := n % 16) (by omega) (by omega) (by omega)
      rw [Nat.div_add_mod] at this
      rw [← this, Nat.toDigits_of_lt_base (by omega : n % 16 < 16)]
      intro c hc
      rcases List.mem_append.1 hc with hc | hc
      · exact ih (n / 16) (by omega) c hc
      · rw [List.mem_singleton] at hc
        subst hc
        exact digitChar_hex _ (by omega)

/-! ## symbols -/

theorem parseSymbolLine_print (machine : Nat) (r : SymRow) (h : r.WF) (a n k : Nat)
    (hval : r.value = List.replicate k '0' ++ Nat.toDigits 16 a) (hsize : r.size = Nat.toDigits 10 n) :
    parseSymbolLine machine r.print =
      some ⟨a, if machine = EM_ARM ∧ r.type = cs!"FUNC" ∧ a % 2 = 1 then a &&& 0xfffffffe else a, n, r.type, r.name⟩ := by
  obtain ⟨st, hs⟩ := symbolRe_search r h
  unfold parseSymbolLine
  rw [hs]
  simp only [Caps.group, dget]
  have e1 : natOfHex r.value = a := by rw [hval, natOfHex_zeros, natOfHex_toDigits]
  have e2 : natOfDigits r.size = n := by rw [hsize, natOfDigits_toDigits]
  simp [e1, e2]

theorem and_mask_odd (a : Nat) (h : a % 2 = 1) (h32 : a < 2 ^ 32) : a &&& 0xfffffffe = a - 1 := by
  apply Nat.eq_of_testBit_eq
  intro i
  rw [Nat.testBit_and]
  have h1 : a - 1 = 2 * (a / 2) := by omega
  have h2 : (0xfffffffe : Nat) = 2 * (2 ^ 31 - 1) := by decide
  rw [h1, h2]
  cases i with
  | zero => simp [Nat.testBit_zero]
  | succ i =>
    rw [Nat.testBit_succ, Nat.testBit_succ, Nat.testBit_succ, Nat.mul_div_cancel_left _ (by decide),
      Nat.mul_div_cancel_left _ (by decide), Nat.testBit_two_pow_sub_one]
    by_cases hi : i < 31
    · simp [hi]
    · have : (a / 2).testBit i = false := by
        apply Nat.testBit_lt_two_pow
        calc a / 2 < 2 ^ 31 := by omega
          _ ≤ 2 ^ i := Nat.pow_le_pow_right (by decide) (by omega)
      simp [this]

/-- what a successful match of the symbol expression says about the line -/
theorem symbolRe_sound (line : Str) (caps : Caps) (st : St) (h : symbolRe.search line = some (caps, st)) :
    ∃ pre num sp1 value sp2 size sp3 typ mid sp4 name tail,
      line = pre ++ num ++ [':'] ++ sp1 ++ value ++ sp2 ++ size ++ sp3 ++ typ ++ mid ++ sp4 ++ name ++ tail ∧
      (num ≠ [] ∧ ∀ c ∈ num, isDigit c = true) ∧ (sp1 ≠ [] ∧ ∀ c ∈ sp1, isSpace c = true) ∧
      (value ≠ [] ∧ ∀ c ∈ value, isHexDigit c = true) ∧ (sp2 ≠ [] ∧ ∀ c ∈ sp2, isSpace c = true) ∧
      (size ≠ [] ∧ ∀ c ∈ size, isDigit c = true) ∧ (sp3 ≠ [] ∧ ∀ c ∈ sp3, isSpace c = true) ∧
      (typ ≠ [] ∧ ∀ c ∈ typ, isWord c = true) ∧ (mid ≠ [] ∧ ∀ c ∈ mid, c ≠ '\n') ∧
      (sp4 ≠ [] ∧ ∀ c ∈ sp4, isSpace c = true) ∧ (name ≠ [] ∧ ∀ c ∈ name, isSpace c = false) ∧
      (tail = [] ∨ tail = ['\n']) ∧
      caps = [(4, name), (3, typ), (2, size), (1, value)] := by
  obtain ⟨pre, b, rfl, hM⟩ := Re.searchFrom_sound _ _ _ _ _ h
  simp only [symbolRe, Re.cat, Re.M, reSp, reHex, Re.M_plus, Re.M_lit] at hM
  obtain ⟨m1, c1, ⟨num, hn1, hn2, e1, -, rfl⟩, m2, c2, ⟨e2, -, rfl⟩, m3, c3, ⟨sp1, hs1, hs1', e3, -, rfl⟩,
    m4, c4, ⟨c4', ⟨value, hv, hv', e4, -, rfl⟩, rfl⟩, m5, c5, ⟨sp2, hs2, hs2', e5, -, rfl⟩,
    m6, c6, ⟨c6', ⟨size, hz, hz', e6, -, rfl⟩, rfl⟩, m7, c7, ⟨sp3, hs3, hs3', e7, -, rfl⟩,
    m8, c8, ⟨c8', ⟨typ, ht, ht', e8, -, rfl⟩, rfl⟩, m9, c9, ⟨mid, hm, hm', e9, -, rfl⟩,
    m10, c10, ⟨sp4, hs4, hs4', e10, -, rfl⟩, m11, c11, ⟨c11', ⟨name, hnm, hnm', e11, -, rfl⟩, rfl⟩,
    heol, rfl, rfl⟩ := hM
  refine ⟨pre, num, sp1, value, sp2, size, sp3, typ, mid, sp4, name, st.rest, ?_, ⟨hn1, hn2⟩, ⟨hs1, hs1'⟩,
    ⟨hv, hv'⟩, ⟨hs2, hs2'⟩, ⟨hz, hz'⟩, ⟨hs3, hs3'⟩, ⟨ht, ht'⟩, ⟨hm, fun c hc => ?_⟩, ⟨hs4, hs4'⟩,
    ⟨hnm, fun c hc => ?_⟩, heol, ?_⟩
  · rw [e1, e2, e3, e4, e5, e6, e7, e8, e9, e10, e11]
    simp
  · have := hm' c hc
    simpa [notNewline] using this
  · have := hnm' c hc
    simpa using this
  · rw [e4, e6, e8, e11]
    simp

/-- the parsed dict maps a name to the symbol of the last row with that name -/
theorem extractSymbols_get (machine : Nat) (lines : List Str) (name : Str) :
    dget name (extractSymbols machine lines).1 =
      ((lines.filterMap (parseSymbolLine machine)).filter (fun s => decide (s.name = name))).getLast? ∧
    dget name (extractSymbols machine lines).2 =
      ((lines.filterMap (parseSymbolLine machine)).filter
        (fun s => decide (s.name = name ∧ s.type = cs!"FUNC"))).getLast? := by
  unfold extractSymbols
  induction lines using List.reverseRecOn with
  | nil => exact ⟨rfl, rfl⟩
  | append_singleton l a ih =>
    rw [List.foldl_append, List.foldl_cons, List.foldl_nil, List.filterMap_append]
    cases hp : parseSymbolLine machine a with
    | none => simpa [hp] using ih
    | some sym =>
      simp only [hp, List.filterMap_cons, List.filterMap_nil, List.filter_append]
      constructor
      · rw [dget_dset]
        by_cases hn : name = sym.name
        · simp [hn]
        · have hn2 : ¬ sym.name = name := fun e => hn e.symm
          simp only [hn, if_false]
          rw [ih.1]
          simp [hn2]
      · by_cases ht : sym.type = cs!"FUNC"
        · simp only [ht, if_true]
          rw [dget_dset]
          by_cases hn : name = sym.name
          · simp [hn, ht]
          · have hn2 : ¬ sym.name = name := fun e => hn e.symm
            simp only [hn, if_false]
            rw [ih.2]
            simp [hn2]
        · rw [if_neg ht, ih.2]
          simp [ht]

/-! ## sections -/

/-- `sec` contains the address -/
def Section.Has (s : Section) (va : Nat) : Prop := s.vaddr ≤ va ∧ va < s.vaddr + s.size

theorem vaddrToOffset_ok_iff (secs : List Section) (va off : Nat) :
    vaddrToOffset secs va = .ok off ↔
      ∃ pre s post, secs = pre ++ s :: post ∧ (∀ t ∈ pre, ¬ t.Has va) ∧ s.Has va ∧ off = s.off + (va - s.vaddr) := by
  induction secs with
  | nil => simp [vaddrToOffset]
  | cons a secs ih =>
    unfold vaddrToOffset
    by_cases h : a.vaddr ≤ va ∧ va < a.vaddr + a.size
    · rw [if_pos h]
      constructor
      · intro he
        simp only [Except.ok.injEq] at he
        exact ⟨[], a, secs, rfl, by simp, h, by omega⟩
      · rintro ⟨pre, s, post, he, hpre, hs, ho⟩
        cases pre with
        | nil =>
          simp at he; obtain ⟨rfl, rfl⟩ := he
          rw [ho]; congr 1
          have := hs.1; omega
        | cons p pre =>
          simp at he; obtain ⟨rfl, rfl⟩ := he
          exact absurd h (hpre _ (by simp))
    · rw [if_neg h, ih]
      constructor
      · rintro ⟨pre, s, post, rfl, hpre, hs, ho⟩
        refine ⟨a :: pre, s, post, rfl, ?_, hs, ho⟩
        intro t ht
        rcases List.mem_cons.1 ht with rfl | ht
        · exact h
        · exact hpre t ht
      · rintro ⟨pre, s, post, he, hpre, hs, ho⟩
        cases pre with
        | nil => simp at he; obtain ⟨rfl, rfl⟩ := he; exact absurd hs h
        | cons p pre =>
          simp at he; obtain ⟨rfl, rfl⟩ := he
          exact ⟨pre, s, post, rfl, fun t ht => hpre t (by simp [ht]), hs, ho⟩

theorem vaddrToOffset_error_iff (secs : List Section) (va : Nat) :
    vaddrToOffset secs va = .error .value ↔ ∀ s ∈ secs, ¬ s.Has va := by
  induction secs with
  | nil => simp [vaddrToOffset]
  | cons a secs ih =>
    unfold vaddrToOffset
    by_cases h : a.vaddr ≤ va ∧ va < a.vaddr + a.size
    · rw [if_pos h]
      simp only [reduceCtorEq, List.mem_cons, false_iff]
      intro hh; exact hh a (by simp) h
    · rw [if_neg h, ih]
      simp only [List.mem_cons]
      constructor
      · rintro hh s (rfl | hs)
        · exact h
        · exact hh s hs
      · intro hh s hs; exact hh s (Or.inr hs)

theorem vaddrToOffset_cases (secs : List Section) (va : Nat) :
    (∃ off, vaddrToOffset secs va = .ok off) ∨ vaddrToOffset secs va = .error .value := by
  induction secs with
  | nil => right; rfl
  | cons a secs ih =>
    unfold vaddrToOffset
    split
    · left; exact ⟨_, rfl⟩
    · exact ih

/-! ## strings -/

theorem readStrLoop_nul (acc s post : Bytes) (hacc : ∀ b ∈ acc, b ≠ 0) (hne : acc ≠ []) (hs : ∀ b ∈ s, b ≠ 0) :
    readStrLoop acc (s ++ 0 :: post) = .ok (acc ++ s ++ [0]) := by
  induction s generalizing acc with
  | nil =>
    have hl : acc.getLast? ≠ some 0 := by
      intro h
      exact hacc 0 (List.mem_of_getLast? h) rfl
    simp only [List.nil_append, readStrLoop, hl, if_false]
    cases post with
    | nil => simp [readStrLoop]
    | cons p post => simp [readStrLoop]
  | cons b s ih =>
    have hl : acc.getLast? ≠ some 0 := by
      intro h
      exact hacc 0 (List.mem_of_getLast? h) rfl
    simp only [List.cons_append, readStrLoop, hl, if_false]
    rw [ih (acc ++ [b])]
    · simp
    · intro x hx
      rcases List.mem_append.1 hx with hx | hx
      · exact hacc x hx
      · simp at hx; rw [hx]; exact hs b (by simp)
    · simp
    · intro x hx; exact hs x (by simp [hx])

theorem readStrLoop_hang (acc s : Bytes) (hacc : acc.getLast? ≠ some 0) (hs : ∀ b ∈ s, b ≠ 0) :
    readStrLoop acc s = .error .hang := by
  induction s generalizing acc with
  | nil => simp [readStrLoop, hacc]
  | cons b s ih =>
    simp only [readStrLoop, hacc, if_false]
    apply ih
    · simp [hs b (by simp)]
    · intro x hx; exact hs x (by simp [hx])

/-- run the loop for `n` evaluations -/
def ReadStr.steps : Nat → ReadStr → Option ReadStr
  | 0, s => some s
  | n + 1, s => s.step.bind (ReadStr.steps n)

theorem ReadStr.steps_forever (n : Nat) (s : ReadStr) (hacc : s.acc.getLast? ≠ some 0)
    (hs : ∀ b ∈ s.ahead, b ≠ 0) : (ReadStr.steps n s).isSome = true := by
  induction n generalizing s with
  | zero => rfl
  | succ n ih =>
    simp only [ReadStr.steps, ReadStr.step, hacc, if_false, Option.bind]
    apply ih
    · cases ha : s.ahead with
      | nil => simpa
      | cons b bs =>
        simp
        exact hs b (by rw [ha]; simp)
    · intro b hb
      exact hs b (List.mem_of_mem_drop hb)

/-- reading a string gives the text of the bytes before the first NUL -/
theorem vaddrReadString_eq (e : Elf) (va off : Nat) (bs post : Bytes) (hoff : e.vaddrToFileOffset va = .ok off)
    (hnz : (0 : UInt8) ∉ bs) (hdata : e.data.drop off = bs ++ 0 :: post) : e.vaddrReadString va = decodeUtf8 bs := by
  unfold Elf.vaddrReadString
  rw [hoff]
  cases bs with
  | nil =>
    simp only [List.nil_append] at hdata
    simp only [bind, Except.bind, hdata]
    cases post <;> simp [readStrLoop]
  | cons b bs =>
    have hnz' : ∀ x ∈ b :: bs, x ≠ 0 := fun x hx h => hnz (h ▸ hx)
    simp only [List.cons_append] at hdata
    simp only [bind, Except.bind, hdata]
    rw [readStrLoop_nul [_] _ _ (by simpa using hnz' _ (by simp)) (by simp) (fun x hx => hnz' x (by simp [hx]))]
    simp only [List.dropLast_concat]
    simp

/-! ## minimum -/

theorem minFold_spec {α : Type} (key : α → Nat) (xs : List α) (x : α) :
    let m := xs.foldl (fun best y => if key y < key best then y else best) x
    (m = x ∨ m ∈ xs) ∧ key m ≤ key x ∧ ∀ y ∈ xs, key m ≤ key y := by
  induction xs generalizing x with
  | nil => simp
  | cons a xs ih =>
    simp only [List.foldl_cons]
    obtain ⟨h1, h2, h3⟩ := ih (if key a < key x then a else x)
    by_cases h : key a < key x
    · simp only [h, if_true] at h1 h2 h3 ⊢
      refine ⟨?_, by omega, ?_⟩
      · rcases h1 with h1 | h1
        · right; rw [h1]; simp
        · right; simp [h1]
      · intro y hy
        rcases List.mem_cons.1 hy with rfl | hy
        · exact h2
        · exact h3 y hy
    · simp only [h, if_false] at h1 h2 h3 ⊢
      refine ⟨?_, h2, ?_⟩
      · rcases h1 with h1 | h1
        · left; exact h1
        · right; simp [h1]
      · intro y hy
        rcases List.mem_cons.1 hy with rfl | hy
        · omega
        · exact h3 y hy

theorem minByKey_spec {α : Type} (key : α → Nat) (l : List α) (m : α) (h : minByKey key l = some m) :
    m ∈ l ∧ ∀ y ∈ l, key m ≤ key y := by
  cases l with
  | nil => simp [minByKey] at h
  | cons x xs =>
    simp only [minByKey, Option.some.injEq] at h
    obtain ⟨h1, h2, h3⟩ := minFold_spec key xs x
    rw [h] at h1 h2 h3
    refine ⟨?_, ?_⟩
    · rcases h1 with h1 | h1
      · rw [h1]; simp
      · simp [h1]
    · intro y hy
      rcases List.mem_cons.1 hy with rfl | hy
      · exact h2
      · exact h3 y hy

theorem minByKey_none {α : Type} (key : α → Nat) (l : List α) : minByKey key l = none ↔ l = [] := by
  cases l <;> simp [minByKey]

/-! ## the string loop and its small steps -/

theorem ReadStr.steps_done (n : Nat) (s t : ReadStr) (h : ReadStr.steps n s = some t) (m : Nat) :
    ReadStr.steps (n + m) s = ReadStr.steps m t := by
  induction n generalizing s with
  | zero => simp [ReadStr.steps] at h; rw [h, Nat.zero_add]
  | succ n ih =>
    rw [Nat.succ_add]
    simp only [ReadStr.steps] at h ⊢
    cases hs : s.step with
    | none => rw [hs] at h; simp at h
    | some s' => rw [hs] at h; simp only [Option.bind] at h ⊢; exact ih s' h

/-- `readStrLoop` is the loop: a result is where the steps stop, `hang` is never stopping. -/
theorem readStrLoop_iff_steps (acc ahead : Bytes) :
    (∀ r, readStrLoop acc ahead = .ok r ↔
      ∃ n s, ReadStr.steps n ⟨acc, ahead⟩ = some s ∧ s.step = none ∧ s.acc = r) ∧
    (readStrLoop acc ahead = .error .hang ↔ ∀ n, (ReadStr.steps n ⟨acc, ahead⟩).isSome = true) := by
  have stop : ∀ acc ahead, acc.getLast? = some 0 →
      (∀ r, (.ok acc : Res Bytes) = .ok r ↔
        ∃ n s, ReadStr.steps n ⟨acc, ahead⟩ = some s ∧ s.step = none ∧ s.acc = r) ∧
      ¬ ∀ n, (ReadStr.steps n ⟨acc, ahead⟩).isSome = true := by
    intro acc ahead hl
    constructor
    · intro r
      constructor
      · intro h; cases h
        exact ⟨0, _, rfl, by simp [ReadStr.step, hl], rfl⟩
      · rintro ⟨n, s, h1, h2, h3⟩
        cases n with
        | zero => simp [ReadStr.steps] at h1; rw [← h3, ← h1]
        | succ n => simp [ReadStr.steps, ReadStr.step, hl] at h1
    · intro h
      have := h 1
      simp [ReadStr.steps, ReadStr.step, hl] at this
  induction ahead generalizing acc with
  | nil =>
    by_cases hl : acc.getLast? = some 0
    · simp only [readStrLoop, hl, if_true, reduceCtorEq, false_iff]
      exact stop acc [] hl
    · simp only [readStrLoop, hl, if_false, reduceCtorEq, false_iff, true_iff]
      have hf : ∀ n, (ReadStr.steps n ⟨acc, []⟩).isSome = true :=
        fun n => ReadStr.steps_forever n _ hl (by simp)
      refine ⟨?_, hf⟩
      rintro r ⟨n, s, h1, h2, -⟩
      have := hf (n + 1)
      rw [ReadStr.steps_done n _ s h1 1] at this
      simp [ReadStr.steps, h2] at this
  | cons b ahead ih =>
    by_cases hl : acc.getLast? = some 0
    · simp only [readStrLoop, hl, if_true, reduceCtorEq, false_iff]
      exact stop acc _ hl
    · simp only [readStrLoop, hl, if_false]
      have hstep : ReadStr.step ⟨acc, b :: ahead⟩ = some ⟨acc ++ [b], ahead⟩ := by simp [ReadStr.step, hl]
      obtain ⟨i1, i2⟩ := ih (acc ++ [b])
      constructor
      · intro r
        rw [i1 r]
        constructor
        · rintro ⟨n, s, h1, h2, h3⟩
          exact ⟨n + 1, s, by simp [ReadStr.steps, hstep, h1], h2, h3⟩
        · rintro ⟨n, s, h1, h2, h3⟩
          cases n with
          | zero => simp [ReadStr.steps] at h1; rw [← h1, hstep] at h2; simp at h2
          | succ n => simp [ReadStr.steps, hstep] at h1; exact ⟨n, s, h1, h2, h3⟩
      · rw [i2]
        constructor
        · intro h n
          cases n with
          | zero => rfl
          | succ n => simpa [ReadStr.steps, hstep] using h n
        · intro h n
          simpa [ReadStr.steps, hstep] using h (n + 1)

/-! ## where symbols come from -/

theorem mem_dset_weak {κ β : Type} [DecidableEq κ] {k : κ} {v : β} {d : Dict κ β} {p : κ × β}
    (h : p ∈ dset k v d) : p = (k, v) ∨ p ∈ d := by
  induction d with
  | nil => left; simpa [dset] using h
  | cons q d ih =>
    obtain ⟨qk, qv⟩ := q
    simp only [dset] at h
    split at h
    · rcases List.mem_cons.1 h with h | h
      · left; exact h
      · right; simp [h]
    · rcases List.mem_cons.1 h with h | h
      · right; simp [h]
      · rcases ih h with h | h
        · left; exact h
        · right; simp [h]

theorem extractSymbols_mem (machine : Nat) (lines : List Str) :
    (∀ p ∈ (extractSymbols machine lines).1, ∃ l ∈ lines, parseSymbolLine machine l = some p.2 ∧ p.1 = p.2.name) ∧
    (∀ p ∈ (extractSymbols machine lines).2, ∃ l ∈ lines, parseSymbolLine machine l = some p.2 ∧ p.1 = p.2.name ∧
      p.2.type = cs!"FUNC") := by
  unfold extractSymbols
  induction lines using List.reverseRecOn with
  | nil => constructor <;> simp
  | append_singleton l a ih =>
    rw [List.foldl_append, List.foldl_cons, List.foldl_nil]
    cases hp : parseSymbolLine machine a with
    | none =>
      simp only
      constructor
      · intro p hp'
        obtain ⟨x, hx, h⟩ := ih.1 p hp'
        exact ⟨x, by simp [hx], h⟩
      · intro p hp'
        obtain ⟨x, hx, h⟩ := ih.2 p hp'
        exact ⟨x, by simp [hx], h⟩
    | some sym =>
      simp only
      constructor
      · intro p hp'
        rcases mem_dset_weak hp' with h | h
        · refine ⟨a, by simp, ?_, ?_⟩ <;> rw [h]
          exact hp
        · obtain ⟨x, hx, h⟩ := ih.1 p h
          exact ⟨x, by simp [hx], h⟩
      · intro p hp'
        split at hp'
        · rename_i ht
          rcases mem_dset_weak hp' with h | h
          · refine ⟨a, by simp, ?_, ?_, ?_⟩ <;> rw [h]
            · exact hp
            · exact ht
          · obtain ⟨x, hx, h⟩ := ih.2 p h
            exact ⟨x, by simp [hx], h⟩
        · obtain ⟨x, hx, h⟩ := ih.2 p hp'
          exact ⟨x, by simp [hx], h⟩

/-- the relation between the two addresses of a parsed symbol -/
theorem parseSymbolLine_real (machine : Nat) (line : Str) (s : Symbol) (h : parseSymbolLine machine line = some s) :
    s.realVaddr = if machine = EM_ARM ∧ s.type = cs!"FUNC" ∧ s.vaddr % 2 = 1 then s.vaddr &&& 0xfffffffe else s.vaddr := by
  unfold parseSymbolLine at h
  split at h
  · exact absurd h (by simp)
  · split at h
    · simp only [Option.some.injEq] at h
      rw [← h]
    · exact absurd h (by simp)

end Verif
