import Verif.Lemmas.Extract
import Verif.Props.Elf
import Mathlib.Data.Nat.Find
/-! # C17, C18, C21, C22, C29-C37: versions, tables and extraction -/
set_option autoImplicit false

namespace Verif
open Spec

/-! ## C17 -/

/-- C17: `A.B.C<rest>` gives the three numbers. -/
theorem C17_three (da db dc rest : Str) (ha : Digits da) (hb : Digits db) (hc : Digits dc) (hr : NoDigit rest) :
    versionFromStr (da ++ '.' :: (db ++ '.' :: (dc ++ rest))) = some [decimal da, decimal db, decimal dc] :=
  version_three da db dc rest ha hb hc hr

/-- C17: `A.B<rest>`, when `rest` does not go on as `.C`, gives the two numbers. -/
theorem C17_two (da db rest : Str) (ha : Digits da) (hb : Digits db) (hr : NoDigit rest)
    (hr2 : ∀ s, rest = '.' :: s → NoDigit s) :
    versionFromStr (da ++ '.' :: (db ++ rest)) = some [decimal da, decimal db] :=
  version_two da db rest ha hb hr hr2

/-- C17: nothing else is a version. -/
theorem C17_none (s : Str) :
    versionFromStr s = none ↔ ¬ ∃ da db rest, Digits da ∧ Digits db ∧ s = da ++ '.' :: (db ++ rest) := by
  refine ⟨?_, version_none s⟩
  intro h hex
  rcases version_shapes s with ⟨da, db, dc, rest, ha, hb, hc, hr, rfl⟩ | ⟨da, db, rest, ha, hb, hr, hr2, rfl⟩ | hno
  · rw [C17_three da db dc rest ha hb hc hr] at h; cases h
  · rw [C17_two da db rest ha hb hr hr2] at h; cases h
  · exact hno hex

/-- C17: the numbers written in decimal are read back. -/
theorem C17_roundtrip (a b c : Nat) (rest : Str) (hr : NoDigit rest) :
    versionFromStr (natRepr a ++ '.' :: (natRepr b ++ '.' :: (natRepr c ++ rest))) = some [a, b, c] ∧
    ((∀ s, rest = '.' :: s → NoDigit s) → versionFromStr (natRepr a ++ '.' :: (natRepr b ++ rest)) = some [a, b]) := by
  constructor
  · rw [C17_three _ _ _ _ (digits_natRepr a) (digits_natRepr b) (digits_natRepr c) hr]
    simp only [decimal_natRepr]
  · intro hr2
    rw [C17_two _ _ _ (digits_natRepr a) (digits_natRepr b) hr hr2]
    simp only [decimal_natRepr]

/-- C17: the banner is the version text after `Linux version `, and nothing else is accepted. -/
theorem C17_banner (s : Str) :
    versionFromBanner (cs!"Linux version " ++ s) = versionFromStr s ∧
    (¬ cs!"Linux version " <+: s → versionFromBanner s = none) := by
  constructor
  · unfold versionFromBanner
    rw [show startsWith (cs!"Linux version " ++ s) cs!"Linux version " = true from
      (startsWith_iff _ _).2 (List.prefix_append _ _)]
    rfl
  · intro h
    unfold versionFromBanner
    rw [startsWith_false h]
    rfl

/-- C17: the version of an image is the one in its `linux_banner`: the bytes of the symbol if its size is known, else the bytes up
to the next NUL. -/
theorem C17_vmlinux (e : Elf) (sym : Symbol) (hsym : dget cs!"linux_banner" e.symbols = some sym) (off : Nat) (text : Str) :
    (sym.size ≠ 0 → e.vaddrToFileOffset sym.realVaddr = .ok off →
      (e.data.drop off).take sym.size = text.flatMap String.utf8EncodeChar → versionFromVmlinux e = .ok (versionFromBanner text)) ∧
    (sym.size = 0 → e.vaddrToFileOffset sym.vaddr = .ok off → Char.ofNat 0 ∉ text →
      (∃ post, e.data.drop off = text.flatMap String.utf8EncodeChar ++ 0 :: post) →
      versionFromVmlinux e = .ok (versionFromBanner text)) := by
  constructor
  · intro hs hoff hd
    unfold versionFromVmlinux
    rw [hsym]
    simp only
    rw [if_pos hs]
    have hr : e.readSymbol sym = .ok (text.flatMap String.utf8EncodeChar) := by
      unfold Elf.readSymbol Elf.vaddrRead
      rw [hoff, ← hd]
      rfl
    rw [hr]
    show (decodeBanner _ >>= _) = _
    unfold decodeBanner
    rw [decodeUtf8_encode]
    rfl
  · rintro hs hoff hn ⟨post, hd⟩
    unfold versionFromVmlinux
    rw [hsym]
    simp only
    rw [if_neg (by simp [hs]), C14_read_string e _ off text post hoff hn hd]
    rfl

/-- C17: an image without `linux_banner`, or whose banner is not one, has no version, which is an error. -/
theorem C17_vmlinux_none (e : Elf) (kdir : Bool) (m : Res Str)
    (h : dget cs!"linux_banner" e.symbols = none ∨ versionFromVmlinux e = .ok none) :
    kernelVersion (some e) kdir m = .error (.named "KernelVersionError") := by
  have h' : versionFromVmlinux e = .ok none := by
    rcases h with h | h
    · unfold versionFromVmlinux
      rw [h]
    · exact h
  unfold kernelVersion
  simp only [h']
  rfl

/-- an image with only a banner, of the given size -/
def bannerElf (size : Nat) : Elf :=
  { bits32 := false, bigEndian := false, machine := 243, eflags := 0,
    data := [1, 2] ++ cs!"Linux version 5.10.0-rc7+".flatMap String.utf8EncodeChar ++ [0, 3],
    sections := [(cs!".rodata", ⟨cs!".rodata", 0x400, 0, 0x100⟩)],
    symbols := [(cs!"linux_banner", ⟨0x402, 0x402, size, cs!"OBJECT", cs!"linux_banner"⟩)], functions := [] }

/-- the hypotheses of both parts of `C17_vmlinux` hold -/
example : (bannerElf 21).vaddrToFileOffset 0x402 = .ok 2 ∧
    ((bannerElf 21).data.drop 2).take 21 = cs!"Linux version 5.10.0-".flatMap String.utf8EncodeChar ∧
    versionFromVmlinux (bannerElf 21) = .ok (some [5, 10, 0]) ∧
    (bannerElf 0).data.drop 2 = cs!"Linux version 5.10.0-rc7+".flatMap String.utf8EncodeChar ++ 0 :: [3] ∧
    versionFromVmlinux (bannerElf 0) = .ok (some [5, 10, 0]) := by decide +kernel

example : versionFromBanner cs!"Linux version 5.10.0-rc7+ (user@host)" = some [5, 10, 0] := by decide +kernel
example : Digits cs!"05" ∧ NoDigit cs!"-rc1" ∧ decimal cs!"05" = 5 := by
  refine ⟨⟨by simp, by decide⟩, ?_, rfl⟩
  rintro c cs ⟨⟩; decide

/-! ## C18 -/

/-- the tag that upstream gives to a release: the last component is dropped when it is zero or absent -/
def expectedTag : Ver → Option Str
  | [a, b] => some (cs!"v" ++ natRepr a ++ cs!"." ++ natRepr b)
  | [a, b, 0] => some (cs!"v" ++ natRepr a ++ cs!"." ++ natRepr b)
  | [a, b, c] => some (cs!"v" ++ natRepr a ++ cs!"." ++ natRepr b ++ cs!"." ++ natRepr c)
  | _ => none

/-- C18 is false of the code: for a version with two components, which `version_from_str` returns for any text
`A.B<rest>`, asking for the tag raises ValueError. -/
theorem C18_version_tag_refuted :
    (∃ s v, versionFromStr s = some v ∧ versionTag v = .error .value) ∧
    ∀ a b, versionTag [a, b] = .error .value :=
  ⟨⟨cs!"6.8-rc1", [6, 8], by decide +kernel, rfl⟩, fun _ _ => rfl⟩

/-- C18, for the versions with three components. -/
theorem C18_version_tag_partial (s : Str) (v : Ver) (hv : versionFromStr s = some v) (h3 : v.length = 3) :
    ∃ t, versionTag v = .ok t ∧ expectedTag v = some t := by
  match v, h3 with
  | [a, b, c], _ =>
    cases c with
    | zero => exact ⟨_, rfl, rfl⟩
    | succ c => exact ⟨_, rfl, rfl⟩

example : versionFromStr cs!"6.8.0" = some [6, 8, 0] ∧ versionTag [6, 8, 0] = .ok cs!"v6.8" ∧
    versionTag [6, 8, 1] = .ok cs!"v6.8.1" := by decide +kernel

/-! ## C21, C22 -/

/-- a prefix shared by at least `t` of the names, ending in an underscore (C20) -/
def CommonPrefix (names : List Str) (t : Nat) (p : Str) : Prop :=
  2 ≤ p.length ∧ p.getLast? = some '_' ∧ t ≤ countStarting p names

/-- C21: what is stripped is the longest common prefix that the name starts with; other names are unchanged. -/
theorem C21_longest_prefix (names : List Str) (hne : names ≠ []) (t : Nat) (ht : 1 ≤ t) (n : Str) :
    ∃ ps, commonPrefixes names t = .ok ps ∧
      ((∀ p, CommonPrefix names t p → ¬ p <+: n) → noprefix n ps = n) ∧
      (∀ p, CommonPrefix names t p → p <+: n →
        (∀ q, CommonPrefix names t q → q <+: n → q.length ≤ p.length) → p ++ noprefix n ps = n) := by
  obtain ⟨ps, h1, -, h3, h4⟩ := C20_common_prefixes names t hne ht
  refine ⟨ps, h1, ?_, ?_⟩
  · intro h
    exact noprefix_none fun p hp => h p ((h4 p).1 hp)
  · intro p hp hpn hmax
    rcases noprefix_cases n ps with ⟨h, -⟩ | ⟨pre, q, post, he, hno, hq⟩
    · exact absurd hpn (h p ((h4 p).2 hp))
    · have hqn : q <+: n := ⟨_, hq⟩
      have hq4 : q ∈ ps := by rw [he]; simp
      have hle := hmax q ((h4 q).1 hq4) hqn
      have hge : p.length ≤ q.length := by
        have hp4 := (h4 p).2 hp
        rw [he] at hp4 h3
        rcases List.mem_append.1 hp4 with hp4 | hp4
        · exact absurd hpn (hno p hp4)
        · rcases List.mem_cons.1 hp4 with rfl | hp4
          · exact Nat.le_refl _
          · exact (List.pairwise_cons.1 (List.pairwise_append.1 h3).2.1).1 p hp4
      have : p = q := by
        rcases List.prefix_or_prefix_of_prefix hpn hqn with h | h
        · exact h.eq_of_length (by omega)
        · exact (h.eq_of_length (by omega)).symm
      rw [this]; exact hq

example : commonPrefixes [cs!"__x64_sys_a", cs!"__x64_sys_b", cs!"sys_c", cs!"sys_d"] 2 =
      .ok [cs!"__x64_sys_", cs!"__x64_", cs!"sys_", cs!"__"] ∧
    noprefix cs!"__x64_sys_open" [cs!"__x64_sys_", cs!"__x64_", cs!"sys_", cs!"__"] = cs!"open" := by decide +kernel

/-- C22: the names derived from a symbol are contiguous pieces of its name, on every architecture. -/
theorem C22_names_are_pieces (a : Arch) (v : Ver) (ps : List Str) (i : Nat) (sym : Symbol) :
    (makeSyscall a v ps i sym).origname <:+: sym.name ∧
    (makeSyscall a v ps i sym).name <:+: (makeSyscall a v ps i sym).origname ∧
    (makeSyscall a v ps i sym).name <:+: sym.name ∧ (makeSyscall a v ps i sym).symbol = sym := by
  have h1 : (derivedNames a ps sym.name).1 <:+: sym.name :=
    (noprefix_suffix _ _).isInfix.trans (translateName_infix a sym.name)
  have h2 : (derivedNames a ps sym.name).2 <:+: (derivedNames a ps sym.name).1 := normalizeName_infix a _
  exact ⟨h1, h2, h2.trans h1, rfl⟩

/-! ## C29 -/

/-- the bytes of a table of 17 words, enough to count as sized in 64-bit files -/
def sampleTable : List Nat := (List.range 17).map fun i => 0x1000 + i

/-- C29: a sized table is read back entry by entry. -/
theorem C29_roundtrip (e : Elf) (tbl : Symbol) (sec : Section) (off : Nat) (xs : List Nat) (pre post : Bytes)
    (hoff : e.vaddrToFileOffset tbl.vaddr = .ok off) (hsz : tbl.size > 0x80)
    (hlen : tbl.size = xs.length * e.ptrSize) (hx : ∀ x ∈ xs, x < 256 ^ e.ptrSize)
    (hpre : pre.length = off) (hdata : e.data = pre ++ encTable e.bigEndian e.ptrSize xs ++ post) :
    unpackTable e tbl sec = .ok xs := by
  have hl : (encTable e.bigEndian e.ptrSize xs).length = tbl.size := by
    rw [hlen]; exact flatMap_enc_length e.bigEndian e.ptrSize xs
  simp only [unpackTable, hoff, bind, Except.bind, if_pos hsz, hdata]
  rw [readAt_append pre _ post off tbl.size hpre hl]
  exact iterUnpack_enc e.bigEndian e.ptrSize (ptrSize_pos e) xs hx

/-- C29: in general, entry `i` is the word stored at that position, for exactly `size / word size` entries; a
table that is not a whole number of words is an error. -/
theorem C29_entries (e : Elf) (tbl : Symbol) (sec : Section) (off : Nat)
    (hoff : e.vaddrToFileOffset tbl.vaddr = .ok off) (hsz : tbl.size > 0x80) (hin : off + tbl.size ≤ e.data.length) :
    (tbl.size % e.ptrSize = 0 → ∃ vs, unpackTable e tbl sec = .ok vs ∧ vs.length = tbl.size / e.ptrSize ∧
      ∀ i v, vs[i]? = some v ↔ i < tbl.size / e.ptrSize ∧ WordAt e.bigEndian e.ptrSize e.data (off + i * e.ptrSize) v) ∧
    (tbl.size % e.ptrSize ≠ 0 → unpackTable e tbl sec = .error .structError) := by
  simp only [unpackTable, hoff, bind, Except.bind, if_pos hsz]
  refine ⟨fun h => iterUnpack_spec _ _ _ _ _ (ptrSize_pos e) hin h, fun h => ?_⟩
  unfold iterUnpack
  rw [if_neg]
  simp only [readAt, List.length_take, List.length_drop]
  rw [Nat.min_eq_left (by omega)]
  exact h

example : ∃ (e : Elf) (tbl : Symbol), e.vaddrToFileOffset tbl.vaddr = .ok 2 ∧ tbl.size > 0x80 ∧
    tbl.size = sampleTable.length * e.ptrSize ∧ e.data = [1, 2] ++ encTable e.bigEndian e.ptrSize sampleTable ++ [3] :=
  ⟨{ bits32 := false, bigEndian := true, machine := 21, eflags := 0,
     data := [1, 2] ++ encTable true 8 sampleTable ++ [3],
     sections := [(cs!".rodata", ⟨cs!".rodata", 0x4000, 0, 0x200⟩)], symbols := [], functions := [] },
   ⟨0x4002, 0x4002, 136, cs!"OBJECT", cs!"sys_call_table"⟩, by decide +kernel⟩

/-! ## C30 -/

/-- entry `i` of an unsized table is valid: it starts before every symbol that lies after the table and points into
the section -/
def ValidEntry (e : Elf) (tbl : Symbol) (sec : Section) (off i v : Nat) : Prop :=
  WordAt e.bigEndian e.ptrSize e.data (off + i * e.ptrSize) v ∧ PointsInto sec v ∧
    ∀ s ∈ e.syms, s.realVaddr > tbl.realVaddr → tbl.vaddr + i * e.ptrSize < s.vaddr

theorem validEntry_iff (e : Elf) (tbl : Symbol) (sec : Section) (off i v : Nat) :
    Accept e.bigEndian e.ptrSize e.data sec ((e.nextSymbol tbl).map Symbol.vaddr) off tbl.vaddr i v ↔
      ValidEntry e tbl sec off i v := by
  unfold Accept ValidEntry
  refine and_congr_right fun _ => and_congr_right fun _ => ?_
  cases hn : e.nextSymbol tbl with
  | none =>
    simp only [Option.map_none, reduceCtorEq, false_implies, implies_true, true_iff]
    intro s hs hgt
    unfold Elf.nextSymbol at hn
    rw [minByKey_none, List.filter_eq_nil_iff] at hn
    exact absurd (by simpa using hgt) (hn s hs)
  | some t =>
    unfold Elf.nextSymbol at hn
    obtain ⟨h1, h2⟩ := minByKey_spec _ _ _ hn
    simp only [List.mem_filter, decide_eq_true_eq] at h1 h2
    simp only [Option.map_some, Option.some.injEq, forall_eq']
    constructor
    · intro h s hs hgt
      exact Nat.lt_of_lt_of_le h (h2 s ⟨hs, hgt⟩)
    · intro h
      exact h t h1.1 h1.2

/-- C30: the entries returned are exactly the leading valid entries; the next position holds a word that is not
valid. -/
theorem C30_unsized (e : Elf) (tbl : Symbol) (sec : Section) (off : Nat)
    (hoff : e.vaddrToFileOffset tbl.vaddr = .ok off) (hsz : ¬ tbl.size > 0x80) (vs : List Nat) :
    unpackTable e tbl sec = .ok vs ↔
      (∀ i (h : i < vs.length), ValidEntry e tbl sec off i vs[i]) ∧
      (∃ v, WordAt e.bigEndian e.ptrSize e.data (off + vs.length * e.ptrSize) v) ∧
      ∀ v, ¬ ValidEntry e tbl sec off vs.length v := by
  simp only [unpackTable, hoff, bind, Except.bind, if_neg hsz]
  rw [unsizedLoop_ok _ _ _ _ _ (ptrSize_pos e) _ _ _ (by omega)]
  simp only [validEntry_iff]

/-- C30: the result is determined by the file; the only failure is reaching the end of the file before any
violation. -/
theorem C30_unsized_eof (e : Elf) (tbl : Symbol) (sec : Section) (off : Nat) (x : Exc)
    (hoff : e.vaddrToFileOffset tbl.vaddr = .ok off) (hsz : ¬ tbl.size > 0x80) :
    unpackTable e tbl sec = .error x ↔
      x = .structError ∧ ∀ i, off + (i + 1) * e.ptrSize ≤ e.data.length → ∃ v, ValidEntry e tbl sec off i v := by
  have hpos := ptrSize_pos e
  have hw : ∀ i, (∃ v, WordAt e.bigEndian e.ptrSize e.data (off + i * e.ptrSize) v) ↔
      off + (i + 1) * e.ptrSize ≤ e.data.length := by
    intro i
    rw [wordAt_exists _ _ _ _ hpos, Nat.succ_mul]
    omega
  constructor
  · intro h
    have herr : x = .structError := by
      simp only [unpackTable, hoff, bind, Except.bind, if_neg hsz] at h
      exact unsizedLoop_error _ _ _ _ _ _ _ _ h
    refine ⟨herr, ?_⟩
    intro i hi
    by_contra hno
    -- the least violation gives a successful result
    obtain ⟨k, hk⟩ : ∃ k, (∃ v, WordAt e.bigEndian e.ptrSize e.data (off + k * e.ptrSize) v) ∧
        (¬ ∃ v, ValidEntry e tbl sec off k v) ∧ ∀ j, j < k → ∃ v, ValidEntry e tbl sec off j v := by
      have hex : ∃ k, ¬ ∃ v, ValidEntry e tbl sec off k v := ⟨i, hno⟩
      classical
      refine ⟨Nat.find hex, ?_, Nat.find_spec hex, fun j hj => by simpa using Nat.find_min hex hj⟩
      rw [hw]
      have : Nat.find hex ≤ i := Nat.find_min' hex hno
      have := Nat.mul_le_mul_right e.ptrSize (Nat.succ_le_succ this)
      simp only [Nat.succ_eq_add_one] at this
      omega
    obtain ⟨h1, h2, h3⟩ := hk
    have hlist : ∀ m, m ≤ k → ∃ vs : List Nat, vs.length = m ∧ ∀ i (h : i < vs.length), ValidEntry e tbl sec off i vs[i] := by
      intro m
      induction m with
      | zero => intro _; exact ⟨[], rfl, by simp⟩
      | succ m ih =>
        intro hm
        obtain ⟨vs, hl, hv⟩ := ih (by omega)
        obtain ⟨v, hvv⟩ := h3 m (by omega)
        refine ⟨vs ++ [v], by simp [hl], ?_⟩
        intro i hi
        rw [List.getElem_append]
        split
        · exact hv i (by assumption)
        · next hge =>
          simp only [List.length_append, List.length_singleton] at hi
          have : i = m := by omega
          subst this
          simpa using hvv
    obtain ⟨vs, hl, hv⟩ := hlist k (Nat.le_refl _)
    have := (C30_unsized e tbl sec off hoff hsz vs).2 ⟨hv, by rw [hl]; exact h1, by rw [hl]; simpa using h2⟩
    rw [this] at h
    cases h
  · rintro ⟨rfl, hall⟩
    cases hu : unpackTable e tbl sec with
    | error y =>
      simp only [unpackTable, hoff, bind, Except.bind, if_neg hsz] at hu
      rw [unsizedLoop_error _ _ _ _ _ _ _ _ hu]
    | ok vs =>
      obtain ⟨-, h2, h3⟩ := (C30_unsized e tbl sec off hoff hsz vs).1 hu
      obtain ⟨v, hv⟩ := hall vs.length ((hw _).1 h2)
      exact absurd hv (h3 v)

/-- a small 32-bit kernel with an unsized table of two entries followed by another symbol -/
def unsizedElf : Elf :=
  { bits32 := true, bigEndian := false, machine := 8, eflags := 0,
    data := encTable false 4 [0x100, 0x104, 0x108, 0x10c],
    sections := [(cs!".text", ⟨cs!".text", 0x100, 0x1000, 0x20⟩), (cs!".rodata", ⟨cs!".rodata", 0x400, 0, 0x10⟩)],
    symbols := [(cs!"tbl", ⟨0x400, 0x400, 0, cs!"NOTYPE", cs!"tbl"⟩), (cs!"nxt", ⟨0x408, 0x408, 0, cs!"NOTYPE", cs!"nxt"⟩)],
    functions := [] }

example : unsizedElf.vaddrToFileOffset 0x400 = .ok 0 ∧
    unpackTable unsizedElf ⟨0x400, 0x400, 0, cs!"NOTYPE", cs!"tbl"⟩ ⟨cs!".text", 0x100, 0x1000, 0x20⟩ =
      .ok [0x100, 0x104] := by decide +kernel

end Verif
