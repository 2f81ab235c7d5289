import Verif.Model.Main
/-! # The character classes used when reading the output of commands and files (part of C11, C14, C47, C55 and C64) -/
set_option autoImplicit false

namespace Verif

/-- the characters Python regards as white space, by code -/
def Spec.spaceCodes : List Nat :=
  [9, 10, 11, 12, 13, 28, 29, 30, 31, 32, 0x85, 0xA0, 0x1680, 0x2000, 0x2001, 0x2002, 0x2003, 0x2004, 0x2005, 0x2006, 0x2007,
   0x2008, 0x2009, 0x200A, 0x2028, 0x2029, 0x202F, 0x205F, 0x3000]

/-- the line ends of `str.splitlines`, by code -/
def Spec.lineEndCodes : List Nat := [10, 13, 11, 12, 0x1C, 0x1D, 0x1E, 0x85, 0x2028, 0x2029]

theorem mem_iff_code (c : Char) (l : Str) : c ∈ l ↔ c.toNat ∈ l.map Char.toNat := by
  simp only [List.mem_map]
  constructor
  · exact fun h => ⟨c, h, rfl⟩
  · rintro ⟨d, hd, h⟩
    have : d = c := Char.ext (UInt32.toNat_inj.1 h)
    exact this ▸ hd

theorem beq_code (c d : Char) : (c == d) = true ↔ c.toNat = d.toNat := by
  rw [beq_iff_eq]
  exact ⟨fun h => h ▸ rfl, fun h => Char.ext (UInt32.toNat_inj.1 h)⟩

/-- white space, for text (`str`) and for bytes -/
theorem C11_white_space (c : Char) :
    (isSpace c = true ↔ c.toNat ∈ Spec.spaceCodes) ∧ (isBSpace c = true ↔ c ∈ cs!" \t\n\r\x0b\x0c") := by
  constructor
  · simp only [isSpace, Spec.spaceCodes, Bool.or_eq_true, Bool.and_eq_true, decide_eq_true_eq, beq_iff_eq, List.mem_cons,
      List.not_mem_nil, or_false]
    omega
  · rw [mem_iff_code]
    simp only [isBSpace, Bool.or_eq_true, Bool.and_eq_true, decide_eq_true_eq, beq_iff_eq, List.map, List.mem_cons,
      List.not_mem_nil, or_false]
    have e : ' '.toNat = 32 ∧ '\t'.toNat = 9 ∧ '\n'.toNat = 10 ∧ '\r'.toNat = 13 ∧ '\x0b'.toNat = 11 ∧ '\x0c'.toNat = 12 := by decide
    obtain ⟨e1, e2, e3, e4, e5, e6⟩ := e
    rw [e1, e2, e3, e4, e5, e6]
    omega

/-- digits, hexadecimal digits and the characters of identifiers -/
theorem C11_digits (c : Char) :
    (isDigit c = true ↔ c ∈ cs!"0123456789") ∧ (isHexDigit c = true ↔ c ∈ cs!"0123456789abcdefABCDEF") ∧
    (isWord c = true ↔ c ∈ cs!"0123456789abcdefghijklmnopqrstuvwxyzABCDEFGHIJKLMNOPQRSTUVWXYZ_") := by
  refine ⟨?_, ?_, ?_⟩
  · rw [mem_iff_code, show (cs!"0123456789").map Char.toNat = List.range' 48 10 from by decide]
    simp only [isDigit, Bool.and_eq_true, decide_eq_true_eq, List.mem_range'_1]
    omega
  · rw [mem_iff_code, show (cs!"0123456789abcdefABCDEF").map Char.toNat =
      List.range' 48 10 ++ List.range' 97 6 ++ List.range' 65 6 from by decide]
    simp only [isHexDigit, Bool.or_eq_true, Bool.and_eq_true, decide_eq_true_eq, List.mem_append, List.mem_range'_1]
    omega
  · rw [mem_iff_code, show (cs!"0123456789abcdefghijklmnopqrstuvwxyzABCDEFGHIJKLMNOPQRSTUVWXYZ_").map Char.toNat =
      List.range' 48 10 ++ List.range' 97 26 ++ List.range' 65 26 ++ [95] from by decide]
    simp only [isWord, Bool.or_eq_true, Bool.and_eq_true, decide_eq_true_eq, beq_iff_eq, List.mem_append, List.mem_range'_1,
      List.mem_singleton]
    omega

/-- the ends of lines in the output of commands -/
theorem C11_line_ends (c : Char) : isLineEnd c = true ↔ c.toNat ∈ Spec.lineEndCodes := by
  simp only [isLineEnd, Bool.or_eq_true, beq_code, Spec.lineEndCodes, List.mem_cons, List.not_mem_nil, or_false]
  have e : '\n'.toNat = 10 ∧ '\r'.toNat = 13 ∧ '\x0b'.toNat = 11 ∧ '\x0c'.toNat = 12 ∧ '\x1c'.toNat = 0x1C ∧ '\x1d'.toNat = 0x1D ∧
    '\x1e'.toNat = 0x1E ∧ '\u0085'.toNat = 0x85 ∧ '\u2028'.toNat = 0x2028 ∧ '\u2029'.toNat = 0x2029 := by decide
  obtain ⟨e1, e2, e3, e4, e5, e6, e7, e8, e9, e10⟩ := e
  rw [e1, e2, e3, e4, e5, e6, e7, e8, e9, e10]
  omega

example : '\t'.toNat ∈ Spec.spaceCodes ∧ 'f' ∈ cs!"0123456789abcdefABCDEF" ∧ '\r'.toNat ∈ Spec.lineEndCodes := by decide

end Verif
