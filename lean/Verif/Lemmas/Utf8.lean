import Verif.Model.Py
/-! # Decoding UTF-8 -/
set_option autoImplicit false

namespace Verif

theorem char_range (c : Char) : c.toNat < 0xd800 ∨ (0xdfff < c.toNat ∧ c.toNat < 0x110000) := c.valid

theorem ofNat_toNat_of_valid (n : Nat) (h : n < 0xd800 ∨ (0xdfff < n ∧ n < 0x110000)) : (Char.ofNat n).toNat = n := by
  have hv : n.isValidChar := h
  unfold Char.ofNat
  rw [dif_pos hv]
  simp only [Char.ofNatAux, Char.toNat]
  rfl

theorem byte_toNat (n : Nat) (h : n < 256) : (UInt8.ofNat n).toNat = n := by
  rw [UInt8.toNat_ofNat']; omega

theorem byte_lt (b : UInt8) : b.toNat < 256 := b.toNat_lt

theorem isCont_iff (b : UInt8) : isCont b = true ↔ 0x80 ≤ b.toNat ∧ b.toNat < 0xc0 := by
  simp [isCont]

theorem encodeChar_cases (c : Char) :
    (c.toNat ≤ 0x7f ∧ String.utf8EncodeChar c = [UInt8.ofNat c.toNat]) ∨
    (0x7f < c.toNat ∧ c.toNat ≤ 0x7ff ∧ String.utf8EncodeChar c =
      [UInt8.ofNat (c.toNat / 64 % 0x20 + 0xc0), UInt8.ofNat (c.toNat % 0x40 + 0x80)]) ∨
    (0x7ff < c.toNat ∧ c.toNat ≤ 0xffff ∧ String.utf8EncodeChar c =
      [UInt8.ofNat (c.toNat / 4096 % 0x10 + 0xe0), UInt8.ofNat (c.toNat / 64 % 0x40 + 0x80),
       UInt8.ofNat (c.toNat % 0x40 + 0x80)]) ∨
    (0xffff < c.toNat ∧ String.utf8EncodeChar c =
      [UInt8.ofNat (c.toNat / 262144 % 0x08 + 0xf0), UInt8.ofNat (c.toNat / 4096 % 0x40 + 0x80),
       UInt8.ofNat (c.toNat / 64 % 0x40 + 0x80), UInt8.ofNat (c.toNat % 0x40 + 0x80)]) := by
  have hv : c.val.toNat = c.toNat := rfl
  unfold String.utf8EncodeChar
  simp only [hv]
  by_cases h1 : c.toNat ≤ 0x7f
  · exact .inl ⟨h1, by rw [if_pos h1]⟩
  · by_cases h2 : c.toNat ≤ 0x7ff
    · exact .inr (.inl ⟨by omega, h2, by rw [if_neg h1, if_pos h2]⟩)
    · by_cases h3 : c.toNat ≤ 0xffff
      · exact .inr (.inr (.inl ⟨by omega, h3, by rw [if_neg h1, if_neg h2, if_pos h3]⟩))
      · exact .inr (.inr (.inr ⟨by omega, by rw [if_neg h1, if_neg h2, if_neg h3]⟩))

/-- an encoded character is read back -/
theorem utf8Char_encode (c : Char) (t : Bytes) :
    utf8Char (String.utf8EncodeChar c ++ t) = some (c.toNat, (String.utf8EncodeChar c).length) := by
  have hr := char_range c
  rcases encodeChar_cases c with ⟨h, he⟩ | ⟨h, h', he⟩ | ⟨h, h', he⟩ | ⟨h, he⟩ <;> rw [he] <;>
    simp only [List.cons_append, List.nil_append, utf8Char, List.length_cons, List.length_nil]
  · rw [byte_toNat _ (by omega), if_pos (by omega)]
  · rw [byte_toNat (c.toNat / 64 % 0x20 + 0xc0) (by omega), byte_toNat (c.toNat % 0x40 + 0x80) (by omega),
      if_neg (by omega), if_neg (by omega), if_pos (by omega),
      if_pos ((isCont_iff _).2 (by rw [byte_toNat _ (by omega)]; omega))]
    simp only [Option.some.injEq, Prod.mk.injEq, and_true]
    omega
  · rw [byte_toNat (c.toNat / 4096 % 0x10 + 0xe0) (by omega), byte_toNat (c.toNat / 64 % 0x40 + 0x80) (by omega),
      byte_toNat (c.toNat % 0x40 + 0x80) (by omega),
      if_neg (by omega), if_neg (by omega), if_neg (by omega), if_pos (by omega)]
    have e1 := (isCont_iff (UInt8.ofNat (c.toNat / 64 % 0x40 + 0x80))).2 (by rw [byte_toNat _ (by omega)]; omega)
    have e2 := (isCont_iff (UInt8.ofNat (c.toNat % 0x40 + 0x80))).2 (by rw [byte_toNat _ (by omega)]; omega)
    have en : (c.toNat / 4096 % 0x10 + 0xe0 - 0xe0) * 4096 + (c.toNat / 64 % 0x40 + 0x80 - 0x80) * 64 +
        (c.toNat % 0x40 + 0x80 - 0x80) = c.toNat := by omega
    rw [en, e1, e2, if_pos]
    simp; omega
  · rw [byte_toNat (c.toNat / 262144 % 0x08 + 0xf0) (by omega), byte_toNat (c.toNat / 4096 % 0x40 + 0x80) (by omega),
      byte_toNat (c.toNat / 64 % 0x40 + 0x80) (by omega), byte_toNat (c.toNat % 0x40 + 0x80) (by omega),
      if_neg (by omega), if_neg (by omega), if_neg (by omega), if_neg (by omega)]
    have e0 := (isCont_iff (UInt8.ofNat (c.toNat / 4096 % 0x40 + 0x80))).2 (by rw [byte_toNat _ (by omega)]; omega)
    have e1 := (isCont_iff (UInt8.ofNat (c.toNat / 64 % 0x40 + 0x80))).2 (by rw [byte_toNat _ (by omega)]; omega)
    have e2 := (isCont_iff (UInt8.ofNat (c.toNat % 0x40 + 0x80))).2 (by rw [byte_toNat _ (by omega)]; omega)
    have en : (c.toNat / 262144 % 0x08 + 0xf0 - 0xf0) * 262144 + (c.toNat / 4096 % 0x40 + 0x80 - 0x80) * 4096 +
        (c.toNat / 64 % 0x40 + 0x80 - 0x80) * 64 + (c.toNat % 0x40 + 0x80 - 0x80) = c.toNat := by omega
    rw [en, e0, e1, e2, if_pos]
    simp; omega

theorem byte_eq (b : UInt8) (n : Nat) (h : b.toNat = n) : UInt8.ofNat n = b := by
  rw [← h]; exact UInt8.ofNat_toNat

/-- what is read is an encoded character -/
theorem utf8Char_sound (bs : Bytes) (cp n : Nat) (h : utf8Char bs = some (cp, n)) :
    ∃ c : Char, c.toNat = cp ∧ n = (String.utf8EncodeChar c).length ∧ String.utf8EncodeChar c = bs.take n := by
  have key : ∀ m : Nat, (m < 0xd800 ∨ (0xdfff < m ∧ m < 0x110000)) → ∃ c : Char, c.toNat = m :=
    fun m hm => ⟨Char.ofNat m, ofNat_toNat_of_valid m hm⟩
  cases bs with
  | nil => simp [utf8Char] at h
  | cons b0 t =>
    have hb0 := byte_lt b0
    simp only [utf8Char] at h
    by_cases h1 : b0.toNat < 0x80
    · rw [if_pos h1] at h
      simp only [Option.some.injEq, Prod.mk.injEq] at h
      obtain ⟨rfl, rfl⟩ := h
      obtain ⟨c, hc⟩ := key b0.toNat (by omega)
      refine ⟨c, hc, ?_⟩
      rcases encodeChar_cases c with ⟨_, he⟩ | ⟨_, _, he⟩ | ⟨_, _, he⟩ | ⟨_, he⟩ <;> try omega
      rw [he, byte_eq b0 _ hc.symm]; simp
    rw [if_neg h1] at h
    by_cases h2 : b0.toNat < 0xc2
    · rw [if_pos h2] at h; cases h
    rw [if_neg h2] at h
    by_cases h3 : b0.toNat < 0xe0
    · rw [if_pos h3] at h
      cases t with
      | nil => cases h
      | cons b1 t =>
        simp only at h
        by_cases hc1 : isCont b1 = true
        · rw [if_pos hc1] at h
          rw [isCont_iff] at hc1
          simp only [Option.some.injEq, Prod.mk.injEq] at h
          obtain ⟨rfl, rfl⟩ := h
          obtain ⟨c, hc⟩ := key ((b0.toNat - 0xc0) * 64 + (b1.toNat - 0x80)) (by omega)
          refine ⟨c, hc, ?_⟩
          rcases encodeChar_cases c with ⟨_, he⟩ | ⟨_, _, he⟩ | ⟨_, _, he⟩ | ⟨_, he⟩ <;> try omega
          rw [he, byte_eq b0 _ (by omega), byte_eq b1 _ (by omega)]; simp
        · rw [if_neg hc1] at h; cases h
    rw [if_neg h3] at h
    by_cases h4 : b0.toNat < 0xf0
    · rw [if_pos h4] at h
      match t, h with
      | [], h => cases h
      | [_], h => cases h
      | b1 :: b2 :: t, h =>
        simp only at h
        split at h
        · rename_i hcond
          simp only [Bool.and_eq_true, isCont_iff, decide_eq_true_eq, Bool.not_eq_true', Bool.and_eq_false_iff,
            decide_eq_false_iff_not] at hcond
          simp only [Option.some.injEq, Prod.mk.injEq] at h
          obtain ⟨h, rfl⟩ := h
          obtain ⟨c, hc⟩ := key cp (by omega)
          refine ⟨c, hc, ?_⟩
          rcases encodeChar_cases c with ⟨_, he⟩ | ⟨_, _, he⟩ | ⟨_, _, he⟩ | ⟨_, he⟩ <;> try omega
          rw [he, byte_eq b0 _ (by omega), byte_eq b1 _ (by omega), byte_eq b2 _ (by omega)]; simp
        · cases h
    · rw [if_neg h4] at h
      match t, h with
      | [], h => cases h
      | [_], h => cases h
      | [_, _], h => cases h
      | b1 :: b2 :: b3 :: t, h =>
        simp only at h
        split at h
        · rename_i hcond
          simp only [Bool.and_eq_true, isCont_iff, decide_eq_true_eq] at hcond
          simp only [Option.some.injEq, Prod.mk.injEq] at h
          obtain ⟨h, rfl⟩ := h
          obtain ⟨c, hc⟩ := key cp (by omega)
          refine ⟨c, hc, ?_⟩
          rcases encodeChar_cases c with ⟨_, he⟩ | ⟨_, _, he⟩ | ⟨_, _, he⟩ | ⟨_, he⟩ <;> try omega
          rw [he, byte_eq b0 _ (by omega), byte_eq b1 _ (by omega), byte_eq b2 _ (by omega), byte_eq b3 _ (by omega)]
          simp
        · cases h

theorem encodeChar_ne_nil (c : Char) : String.utf8EncodeChar c ≠ [] := by
  rcases encodeChar_cases c with ⟨_, he⟩ | ⟨_, _, he⟩ | ⟨_, _, he⟩ | ⟨_, he⟩ <;> rw [he] <;> simp

theorem utf8Go_skip (n : Nat) (pre t : Bytes) (h : pre.length = n) : utf8Go n (pre ++ t) = utf8Go 0 t := by
  induction pre generalizing n with
  | nil => subst h; rfl
  | cons b pre ih =>
    subst h
    simp only [List.cons_append, List.length_cons, utf8Go]
    exact ih _ rfl

theorem utf8Go_char (c : Char) (t : Bytes) :
    utf8Go 0 (String.utf8EncodeChar c ++ t) = (utf8Go 0 t).map (fun s => c :: s) := by
  have hu := utf8Char_encode c t
  cases he : String.utf8EncodeChar c with
  | nil => exact absurd he (encodeChar_ne_nil c)
  | cons b bs =>
    rw [he] at hu
    simp only [List.cons_append] at hu ⊢
    simp only [utf8Go, hu, List.length_cons, Nat.add_sub_cancel]
    rw [utf8Go_skip _ bs t rfl, Char.ofNat_toNat]
    cases utf8Go 0 t <;> rfl

theorem decodeUtf8_encode (s : Str) : decodeUtf8 (s.flatMap String.utf8EncodeChar) = .ok s := by
  unfold decodeUtf8
  induction s with
  | nil => rfl
  | cons c s ih => rw [List.flatMap_cons, utf8Go_char, ih]; rfl

theorem utf8Go_sound (k : Nat) : ∀ (bs : Bytes) (s : Str), bs.length ≤ k → utf8Go 0 bs = .ok s →
    s.flatMap String.utf8EncodeChar = bs := by
  induction k with
  | zero =>
    intro bs s hl h
    cases bs with
    | nil => cases h; rfl
    | cons b bs => simp at hl
  | succ k ih =>
    intro bs s hl h
    cases bs with
    | nil => cases h; rfl
    | cons b bs =>
      cases hu : utf8Char (b :: bs) with
      | none => rw [utf8Go, hu] at h; cases h
      | some p =>
        obtain ⟨cp, n⟩ := p
        obtain ⟨c, hc, hn, he⟩ := utf8Char_sound _ _ _ hu
        have hsplit : b :: bs = String.utf8EncodeChar c ++ (b :: bs).drop n := by rw [he, List.take_append_drop]
        rw [hsplit, utf8Go_char] at h
        cases hr : utf8Go 0 ((b :: bs).drop n) with
        | error e => rw [hr] at h; cases h
        | ok s' =>
          rw [hr] at h
          cases h
          have hlen : 0 < n := by
            rw [hn]; exact List.length_pos_iff.2 (encodeChar_ne_nil c)
          have := ih _ s' (by simp only [List.length_drop, List.length_cons] at *; omega) hr
          rw [List.flatMap_cons, this, ← hsplit]

/-- decoding succeeds exactly on encoded text -/
theorem decodeUtf8_iff (bs : Bytes) (s : Str) :
    decodeUtf8 bs = .ok s ↔ s.flatMap String.utf8EncodeChar = bs :=
  ⟨utf8Go_sound bs.length bs s (Nat.le_refl _), fun h => h ▸ decodeUtf8_encode s⟩

theorem utf8Go_error (n : Nat) (bs : Bytes) (e : Exc) (h : utf8Go n bs = .error e) : e = .unicode := by
  induction bs generalizing n with
  | nil => cases n <;> cases h
  | cons b bs ih =>
    cases n with
    | succ n => exact ih n h
    | zero =>
      rw [utf8Go] at h
      split at h
      · cases h; rfl
      · rename_i c n _
        cases hr : utf8Go (n - 1) bs with
        | ok s => simp only [hr, bind, Except.bind] at h; cases h
        | error e' => simp only [hr, bind, Except.bind] at h; cases h; exact ih _ hr

/-- the only error of decoding -/
theorem decodeUtf8_error (bs : Bytes) (e : Exc) (h : decodeUtf8 bs = .error e) : e = .unicode :=
  utf8Go_error 0 bs e h

theorem decodeUtf8_error_iff (bs : Bytes) :
    decodeUtf8 bs = .error .unicode ↔ ∀ s : Str, s.flatMap String.utf8EncodeChar ≠ bs := by
  constructor
  · intro h s hs
    rw [(decodeUtf8_iff bs s).2 hs] at h; cases h
  · intro h
    cases hd : decodeUtf8 bs with
    | ok s => exact absurd ((decodeUtf8_iff bs s).1 hd) (h s)
    | error e => rw [decodeUtf8_error bs e hd]

/-- only the NUL character has a NUL byte -/
theorem zero_mem_encodeChar (c : Char) : (0 : UInt8) ∈ String.utf8EncodeChar c ↔ c.toNat = 0 := by
  have hz : ∀ n : Nat, n < 256 → (0 : UInt8) = UInt8.ofNat n → n = 0 := by
    intro n hn h
    have := congrArg UInt8.toNat h
    rw [byte_toNat n hn] at this
    simpa using this.symm
  constructor
  · intro h
    rcases encodeChar_cases c with ⟨h', he⟩ | ⟨_, _, he⟩ | ⟨_, _, he⟩ | ⟨_, he⟩ <;> rw [he] at h <;>
      simp only [List.mem_cons, List.not_mem_nil, or_false] at h
    · exact hz _ (by omega) h
    · rcases h with h | h
      · have := hz _ (by omega) h; omega
      · have := hz _ (by omega) h; omega
    · rcases h with h | h | h
      · have := hz _ (by omega) h; omega
      · have := hz _ (by omega) h; omega
      · have := hz _ (by omega) h; omega
    · rcases h with h | h | h | h
      · have := hz _ (by omega) h; omega
      · have := hz _ (by omega) h; omega
      · have := hz _ (by omega) h; omega
      · have := hz _ (by omega) h; omega
  · intro h
    rcases encodeChar_cases c with ⟨h', he⟩ | ⟨_, _, he⟩ | ⟨_, _, he⟩ | ⟨_, he⟩ <;> try omega
    rw [he, h]; simp

/-- ASCII text is its own encoding -/
theorem encode_ascii (s : Str) (h : ∀ c ∈ s, c.toNat < 128) :
    s.flatMap String.utf8EncodeChar = s.map fun c => UInt8.ofNat c.toNat := by
  induction s with
  | nil => rfl
  | cons c s ih =>
    have := h c (by simp)
    rw [List.flatMap_cons, List.map_cons, ih (fun x hx => h x (by simp [hx]))]
    rcases encodeChar_cases c with ⟨h', he⟩ | ⟨_, _, he⟩ | ⟨_, _, he⟩ | ⟨_, he⟩ <;> try omega
    rw [he]; rfl

end Verif
