import Verif.Lemmas.Elf
/-! # C09-C16: ELF parsing -/
set_option autoImplicit false

namespace Verif
open Spec

/-! ## C09, C10 -/

/-- a concrete ELF32 ARM header -/
def sampleHeader32 : Header := ⟨true, true, List.replicate 10 0, 2, 40, 1, 0x8000, 52, 0x1234, 0x5000400⟩

/-- a concrete ELF64 little endian header -/
def sampleHeader64 : Header := ⟨false, false, List.replicate 10 0, 2, 62, 1, 0x1000000, 64, 0x123456, 7⟩

/-- C09: class, endianness and machine of every well-formed header are decoded, whatever follows it. -/
theorem C09_header_roundtrip (h : Header) (hw : h.WF) (rest : Bytes) :
    ∃ flags, parseElfHeader (h.encode rest) = .ok ⟨h.bits32, h.big, h.eMachine, flags⟩ :=
  ⟨_, parseElfHeader_encode h hw rest⟩

example : sampleHeader32.WF ∧ sampleHeader64.WF ∧
    parseElfHeader (sampleHeader32.encode [1, 2]) = .ok ⟨true, true, 40, 0x5000400⟩ := by
  refine ⟨?_, ?_, by decide⟩ <;> simp [Header.WF, sampleHeader32, sampleHeader64]

/-- C09: an object only exists if both identification bytes are valid, and it reports what they say. -/
theorem C09_header_sound (data : Bytes) (r : ElfHeader) (h : parseElfHeader data = .ok r) :
    data[4]? = some (if r.bits32 then 1 else 2) ∧ data[5]? = some (if r.bigEndian then 2 else 1) := by
  unfold parseElfHeader at h
  split at h
  · split at h
    · rename_i c d hc hd
      have hc' : data[4]? = some c := by simpa [readAt] using hc
      have hd' : data[5]? = some d := by simpa [readAt] using hd
      rw [hc', hd']
      simp only [bind, Except.bind] at h
      split at h
      · simp at h
      · rename_i b32 hb
        split at h
        · simp at h
        · rename_i big hbig
          split at h
          · simp at h
          · split at h
            · simp at h
            · simp only [Except.ok.injEq] at h
              subst h
              constructor
              · revert hb; split
                · rename_i hx; intro hb; cases hb; simp [hx]
                · split
                  · rename_i hx; intro hb; cases hb; simp [hx]
                  · simp
              · revert hbig; split
                · rename_i hx; intro hb; cases hb; simp [hx]
                · split
                  · rename_i hx; intro hb; cases hb; simp [hx]
                  · simp
    · simp at h
  · simp at h

/-- C09: a file of at least six bytes with an invalid class or data byte ends the program with status 1. -/
theorem C09_header_invalid (data : Bytes) (c d : UInt8) (h6 : 6 ≤ data.length)
    (hc : data[4]? = some c) (hd : data[5]? = some d)
    (hbad : (c ≠ 1 ∧ c ≠ 2) ∨ (d ≠ 1 ∧ d ≠ 2)) : parseElfHeader data = .error (.exit 1) := by
  have hl : (readAt data 0 6).length = 6 := by simp [readAt]; omega
  have hc' : (readAt data 0 6)[4]? = some c := by simpa [readAt] using hc
  have hd' : (readAt data 0 6)[5]? = some d := by simpa [readAt] using hd
  unfold parseElfHeader
  rw [if_pos hl, hc', hd']
  by_cases c1 : c = 1
  · have : d ≠ 1 ∧ d ≠ 2 := by
      rcases hbad with h | h
      · exact absurd c1 h.1
      · exact h
    simp [c1, this.1, this.2, bind, Except.bind]
  · by_cases c2 : c = 2
    · have : d ≠ 1 ∧ d ≠ 2 := by
        rcases hbad with h | h
        · exact absurd c2 h.2
        · exact h
      simp [c2, this.1, this.2, bind, Except.bind]
    · simp [c1, c2, bind, Except.bind]

example : parseElfHeader [0x7f, 0x45, 0x4c, 0x46, 3, 1, 0, 0] = .error (.exit 1) := by decide

/-- C10 is false of the code for 64-bit files: the flags are read at the 32-bit offset. -/
theorem C10_eflags_refuted :
    ∃ (h : Header) (r : ElfHeader), h.WF ∧ parseElfHeader (h.encode []) = .ok r ∧ r.eflags ≠ h.eFlags :=
  ⟨sampleHeader64, ⟨false, false, 62, 0⟩, by simp [Header.WF, sampleHeader64], by decide, by decide⟩

/-- C10, the part that holds: 32-bit files. Missing: 64-bit files, see `C10_eflags_refuted`. -/
theorem C10_eflags_partial (h : Header) (hw : h.WF) (h32 : h.bits32 = true) (rest : Bytes) :
    ∃ r, parseElfHeader (h.encode rest) = .ok r ∧ r.eflags = h.eFlags :=
  ⟨_, parseElfHeader_encode h hw rest, eflags_elf32 h hw h32 rest⟩

/-- C10: what 64-bit files get instead, namely half of the program header offset. -/
theorem C10_eflags_elf64 (h : Header) (hw : h.WF) (h64 : h.bits32 = false) (rest : Bytes) :
    ∃ r, parseElfHeader (h.encode rest) = .ok r ∧
      r.eflags = if h.big then h.ePhoff % 2 ^ 32 else h.ePhoff / 2 ^ 32 :=
  ⟨_, parseElfHeader_encode h hw rest, eflags_elf64 h hw h64 rest⟩

example : sampleHeader32.WF ∧ sampleHeader32.bits32 = true ∧ sampleHeader64.WF ∧ sampleHeader64.bits32 = false := by
  simp [Header.WF, sampleHeader32, sampleHeader64]

/-! ## C11, C12 -/

/-- a row of `readelf -Ws` -/
def sampleRow : SymRow :=
  ⟨cs!"  ", cs!"1337", cs!" ", cs!"c0101235", cs!"  ", cs!"24", cs!" ", cs!"FUNC", cs!"    GLOBAL DEFAULT    1", cs!" ", cs!"sys_read"⟩

/-- C11: every row of the table is parsed into exactly its address, size, type and name. -/
theorem C11_symbol_row (machine : Nat) (r : SymRow) (h : r.WF) (a n k : Nat)
    (hval : r.value = List.replicate k '0' ++ Nat.toDigits 16 a) (hsize : r.size = Nat.toDigits 10 n) :
    ∃ real, parseSymbolLine machine r.print = some ⟨a, real, n, r.type, r.name⟩ :=
  ⟨_, parseSymbolLine_print machine r h a n k hval hsize⟩

example : sampleRow.WF ∧ sampleRow.value = List.replicate 0 '0' ++ Nat.toDigits 16 0xc0101235 ∧
    sampleRow.size = Nat.toDigits 10 24 ∧
    sampleRow.print = cs!"  1337: c0101235  24 FUNC    GLOBAL DEFAULT    1 sys_read" := by
  refine ⟨?_, by decide, by decide, by decide⟩
  exact ⟨by decide, by decide, by unfold Blanks; decide, by unfold hexDigit; decide, by unfold Blanks; decide,
    by decide, by unfold Blanks; decide, by decide, ⟨_, rfl, by decide⟩, by unfold Blanks; decide, by decide⟩

/-- C11: only lines of that shape yield a symbol, and it carries the fields found in the line. -/
theorem C11_symbol_row_sound (machine : Nat) (line : Str) (s : Symbol) (h : parseSymbolLine machine line = some s) :
    ∃ pre num sp1 value sp2 size sp3 mid sp4 tail,
      line = pre ++ num ++ [':'] ++ sp1 ++ value ++ sp2 ++ size ++ sp3 ++ s.type ++ mid ++ sp4 ++ s.name ++ tail ∧
      (num ≠ [] ∧ ∀ c ∈ num, isDigit c = true) ∧ (sp1 ≠ [] ∧ ∀ c ∈ sp1, isSpace c = true) ∧
      (value ≠ [] ∧ ∀ c ∈ value, isHexDigit c = true) ∧ (sp2 ≠ [] ∧ ∀ c ∈ sp2, isSpace c = true) ∧
      (size ≠ [] ∧ ∀ c ∈ size, isDigit c = true) ∧ (sp3 ≠ [] ∧ ∀ c ∈ sp3, isSpace c = true) ∧
      (s.type ≠ [] ∧ ∀ c ∈ s.type, isWord c = true) ∧ mid ≠ [] ∧
      (sp4 ≠ [] ∧ ∀ c ∈ sp4, isSpace c = true) ∧ (s.name ≠ [] ∧ ∀ c ∈ s.name, isSpace c = false) ∧
      (tail = [] ∨ tail = ['\n']) ∧ s.vaddr = natOfHex value ∧ s.size = natOfDigits size := by
  unfold parseSymbolLine at h
  split at h
  · simp at h
  · rename_i caps st hs
    obtain ⟨pre, num, sp1, value, sp2, size, sp3, typ, mid, sp4, name, tail, hl, a1, a2, a3, a4, a5, a6, a7, a8, a9, a10, a11, rfl⟩ :=
      symbolRe_sound line caps st hs
    simp only [Caps.group, dget] at h
    simp at h
    subst h
    exact ⟨pre, num, sp1, value, sp2, size, sp3, mid, sp4, tail, hl, a1, a2, a3, a4, a5, a6, a7, a8.1, a9, a10, a11, rfl, rfl⟩

/-- C11: so a line without a colon, such as the header of the table, is ignored. -/
theorem C11_no_colon_ignored (machine : Nat) (line : Str) (h : ':' ∉ line) : parseSymbolLine machine line = none := by
  cases hp : parseSymbolLine machine line with
  | none => rfl
  | some s =>
    obtain ⟨pre, num, sp1, value, sp2, size, sp3, mid, sp4, tail, hl, -⟩ := C11_symbol_row_sound machine line s hp
    exact absurd (by rw [hl]; simp) h

/-- C11, limit: a row whose size is printed in hexadecimal (binutils does so for sizes above 99999) is dropped. -/
theorem C11_hex_size_dropped :
    parseSymbolLine EM_X86_64 cs!" 7: ffffffff81000000  0x1f000 OBJECT  GLOBAL DEFAULT    1 sys_call_table" = none := by
  decide +kernel

/-- C12: the two addresses of a parsed symbol. -/
theorem C12_thumb (machine : Nat) (line : Str) (s : Symbol) (h : parseSymbolLine machine line = some s)
    (h32 : machine = EM_ARM → s.vaddr < 2 ^ 32) :
    (machine = EM_ARM ∧ s.type = cs!"FUNC" ∧ s.vaddr % 2 = 1 → s.realVaddr = s.vaddr - 1 ∧ s.realVaddr % 2 = 0) ∧
    (¬ (machine = EM_ARM ∧ s.type = cs!"FUNC" ∧ s.vaddr % 2 = 1) → s.realVaddr = s.vaddr) := by
  have := parseSymbolLine_real machine line s h
  constructor
  · intro hc
    rw [if_pos hc, and_mask_odd _ hc.2.2 (h32 hc.1)] at this
    omega
  · intro hc
    rw [if_neg hc] at this
    exact this

example : ∃ s, parseSymbolLine EM_ARM sampleRow.print = some s ∧ s.vaddr = 0xc0101235 ∧ s.realVaddr = 0xc0101234 :=
  ⟨⟨0xc0101235, 0xc0101234, 24, cs!"FUNC", cs!"sys_read"⟩, by decide +kernel, rfl, rfl⟩

/-- C12: lookup by name gives the last row of that name, among all symbols and among functions. -/
theorem C12_last_row_wins (machine : Nat) (lines : List Str) (name : Str) :
    dget name (extractSymbols machine lines).1 =
      ((lines.filterMap (parseSymbolLine machine)).filter (fun s => decide (s.name = name))).getLast? ∧
    dget name (extractSymbols machine lines).2 =
      ((lines.filterMap (parseSymbolLine machine)).filter
        (fun s => decide (s.name = name ∧ s.type = cs!"FUNC"))).getLast? :=
  extractSymbols_get machine lines name

example : (dget cs!"f" (extractSymbols EM_386 [cs!"1: 10 4 FUNC L f", cs!"2: 20 4 OBJECT L f"]).1).map Symbol.vaddr = some 0x20 ∧
    (dget cs!"f" (extractSymbols EM_386 [cs!"1: 10 4 FUNC L f", cs!"2: 20 4 OBJECT L f"]).2).map Symbol.vaddr = some 0x10 := by
  decide +kernel

/-! ## C13 -/

/-- the address lies in the section -/
def InSection (s : Section) (va : Nat) : Prop := s.vaddr ≤ va ∧ va < s.vaddr + s.size

/-- at most one section of the list contains the address (sections elsewhere may overlap: those that are not loaded,
such as debug information, all have address 0) -/
def Unique (l : List Section) (va : Nat) : Prop := ∀ s ∈ l, ∀ t ∈ l, InSection s va → InSection t va → s = t

/-- C13: translation succeeds exactly for mapped addresses; otherwise it is a ValueError. -/
theorem C13_mapped_iff (e : Elf) (va : Nat) :
    ((∃ off, e.vaddrToFileOffset va = .ok off) ↔ ∃ s ∈ e.secs, InSection s va) ∧
    ((¬ ∃ s ∈ e.secs, InSection s va) → e.vaddrToFileOffset va = .error .value) := by
  constructor
  · constructor
    · rintro ⟨off, h⟩
      obtain ⟨pre, s, post, h1, -, h3, -⟩ := (vaddrToOffset_ok_iff _ _ _).1 h
      exact ⟨s, by rw [h1]; simp, h3⟩
    · rintro ⟨s, hs, hin⟩
      rcases vaddrToOffset_cases e.secs va with h | h
      · exact h
      · exact absurd hin ((vaddrToOffset_error_iff _ _).1 h s hs)
  · intro h
    refine (vaddrToOffset_error_iff _ _).2 fun s hs hin => h ⟨s, hs, hin⟩

/-- C13: when one section contains the address the offset is the one in that section. -/
theorem C13_offset (e : Elf) (va : Nat) (hd : Unique e.secs va) (s : Section) (hs : s ∈ e.secs) (hin : InSection s va) :
    e.vaddrToFileOffset va = .ok (s.off + (va - s.vaddr)) := by
  obtain ⟨off, h⟩ := (C13_mapped_iff e va).1.2 ⟨s, hs, hin⟩
  obtain ⟨pre, t, post, h1, -, h3, h4⟩ := (vaddrToOffset_ok_iff _ _ _).1 h
  rw [h, h4, hd s hs t (by rw [h1]; simp) hin h3]

/-- C13: then the order of the section table does not matter. -/
theorem C13_order_irrelevant (e e' : Elf) (hp : e.secs.Perm e'.secs) (va : Nat) (hd : Unique e.secs va) :
    e.vaddrToFileOffset va = e'.vaddrToFileOffset va := by
  have hd' : Unique e'.secs va := fun s hs t ht => hd s (hp.mem_iff.2 hs) t (hp.mem_iff.2 ht)
  by_cases h : ∃ s ∈ e.secs, InSection s va
  · obtain ⟨s, hs, hin⟩ := h
    rw [C13_offset e va hd s hs hin, C13_offset e' va hd' s (hp.mem_iff.1 hs) hin]
  · rw [(C13_mapped_iff e va).2 h, (C13_mapped_iff e' va).2 (fun ⟨s, hs, hin⟩ => h ⟨s, hp.mem_iff.2 hs, hin⟩)]

/-- C13: among several sections containing the address the first one of the table counts. -/
theorem C13_first (e : Elf) (va off : Nat) :
    e.vaddrToFileOffset va = .ok off ↔
      ∃ pre s post, e.secs = pre ++ s :: post ∧ (∀ t ∈ pre, ¬ InSection t va) ∧ InSection s va ∧
        off = s.off + (va - s.vaddr) :=
  vaddrToOffset_ok_iff _ _ _

/-- C13: reads inside a section return that part of the section's bytes. -/
theorem C13_read (e : Elf) (va n : Nat) (hd : Unique e.secs va) (s : Section) (hs : s ∈ e.secs) (hin : InSection s va)
    (hfit : va + n ≤ s.vaddr + s.size) :
    e.vaddrRead va n = .ok ((((e.data.drop s.off).take s.size).drop (va - s.vaddr)).take n) := by
  unfold Elf.vaddrRead
  rw [C13_offset e va hd s hs hin]
  simp only [bind, Except.bind, readAt, Except.ok.injEq]
  rw [List.drop_take, List.take_take, List.drop_drop]
  congr 1
  have := hin.1
  omega

/-- sample file with two sections -/
def sampleElf : Elf :=
  ⟨true, false, EM_386, 0, [1, 2, 3, 0x61, 0x62, 0, 7, 8],
   [(cs!".a", ⟨cs!".a", 0x100, 0, 3⟩), (cs!".b", ⟨cs!".b", 0x200, 3, 5⟩)], [], []⟩

/-- the same with two sections of debug information -/
def sampleDebug : Elf :=
  { sampleElf with sections := sampleElf.sections ++
    [(cs!".debug_line", ⟨cs!".debug_line", 0, 3, 3⟩), (cs!".debug_info", ⟨cs!".debug_info", 0, 6, 2⟩)] }

example : Unique sampleDebug.secs 0x201 ∧ ⟨cs!".b", 0x200, 3, 5⟩ ∈ sampleDebug.secs ∧
    InSection ⟨cs!".b", 0x200, 3, 5⟩ 0x201 ∧ 0x201 + 3 ≤ 0x200 + 5 ∧ ¬ Unique sampleDebug.secs 0 ∧
    sampleDebug.vaddrRead 0x201 3 = .ok [0x62, 0, 7] := by
  unfold Unique InSection; decide

/-- C13: reading a symbol by name gives the bytes of its section from the address in the last row of that name, an odd
address of an ARM function being taken one lower; the number of bytes is the size in the row. -/
theorem C13_read_symbol (e : Elf) (lines : List Str) (he : e.symbols = (extractSymbols e.machine lines).1)
    (name : Str) (row : Symbol)
    (hrow : ((lines.filterMap (parseSymbolLine e.machine)).filter (fun s => decide (s.name = name))).getLast? = some row)
    (h32 : e.machine = EM_ARM → row.vaddr < 2 ^ 32) (addr : Nat)
    (haddr : addr = if e.machine = EM_ARM ∧ row.type = cs!"FUNC" then row.vaddr / 2 * 2 else row.vaddr)
    (hd : Unique e.secs addr) (s : Section) (hs : s ∈ e.secs) (hin : InSection s addr) (hfit : addr + row.size ≤ s.vaddr + s.size) :
    e.readSymbolNamed name = .ok ((((e.data.drop s.off).take s.size).drop (addr - s.vaddr)).take row.size) ∧
    e.readSymbol row = e.readSymbolNamed name := by
  have hget : dget name e.symbols = some row := by rw [he, (C12_last_row_wins e.machine lines name).1, hrow]
  have hmem := List.mem_of_getLast? hrow
  obtain ⟨l, -, hl⟩ := List.mem_filterMap.1 (List.mem_filter.1 hmem).1
  obtain ⟨h1, h2⟩ := C12_thumb e.machine l row hl h32
  have hreal : row.realVaddr = addr := by
    by_cases hodd : e.machine = EM_ARM ∧ row.type = cs!"FUNC" ∧ row.vaddr % 2 = 1
    · have := h1 hodd
      rw [if_pos ⟨hodd.1, hodd.2.1⟩] at haddr
      omega
    · rw [h2 hodd, haddr]
      split
      · rename_i hf
        have : ¬ row.vaddr % 2 = 1 := fun ho => hodd ⟨hf.1, hf.2, ho⟩
        omega
      · rfl
  have hr : e.readSymbolNamed name = e.readSymbol row := by simp only [Elf.readSymbolNamed, hget]
  refine ⟨?_, hr.symm⟩
  rw [hr, Elf.readSymbol, hreal]
  exact C13_read e addr row.size hd s hs hin hfit

/-- C13: a name without a row is a KeyError. -/
theorem C13_read_symbol_unknown (e : Elf) (lines : List Str) (he : e.symbols = (extractSymbols e.machine lines).1)
    (name : Str) (hno : ∀ l ∈ lines, ∀ s, parseSymbolLine e.machine l = some s → s.name ≠ name) :
    e.readSymbolNamed name = .error .key := by
  have hget : dget name e.symbols = none := by
    rw [he, (C12_last_row_wins e.machine lines name).1, List.getLast?_eq_none_iff, List.filter_eq_nil_iff]
    intro s hs
    obtain ⟨l, hl, hp⟩ := List.mem_filterMap.1 hs
    simpa using hno l hl s hp
  simp only [Elf.readSymbolNamed, hget]

/-- a Thumb function in the sample file -/
def sampleThumb : Elf :=
  { sampleElf with machine := EM_ARM, symbols := (extractSymbols EM_ARM [cs!"1: 203 2 FUNC L f"]).1 }

example : sampleThumb.symbols = (extractSymbols sampleThumb.machine [cs!"1: 203 2 FUNC L f"]).1 ∧
    (([cs!"1: 203 2 FUNC L f"].filterMap (parseSymbolLine EM_ARM)).filter (fun s => decide (s.name = cs!"f"))).getLast? =
      some ⟨0x203, 0x202, 2, cs!"FUNC", cs!"f"⟩ ∧
    Unique sampleThumb.secs 0x202 ∧ InSection ⟨cs!".b", 0x200, 3, 5⟩ 0x202 ∧ sampleThumb.readSymbolNamed cs!"f" = .ok [0, 7] ∧
    sampleThumb.readSymbolNamed cs!"g" = .error .key := by
  refine ⟨rfl, by decide +kernel, by unfold Unique InSection; decide +kernel, by simp [InSection], by decide +kernel,
    by decide +kernel⟩

/-! ## C14, C15 -/

/-- C14: at a mapped address that holds the UTF-8 encoding (`String.utf8EncodeChar` of Lean's core) of any text without
NUL characters, followed by a NUL byte, that text is returned. -/
theorem C14_read_string (e : Elf) (va off : Nat) (s : Str) (post : Bytes)
    (hoff : e.vaddrToFileOffset va = .ok off) (hnul : Char.ofNat 0 ∉ s)
    (hdata : e.data.drop off = s.flatMap String.utf8EncodeChar ++ 0 :: post) :
    e.vaddrReadString va = .ok s := by
  rw [vaddrReadString_eq e va off _ post hoff ?_ hdata, decodeUtf8_encode]
  intro h
  obtain ⟨c, hc, hz⟩ := List.mem_flatMap.1 h
  rw [zero_mem_encodeChar] at hz
  apply hnul
  rw [← hz, Char.ofNat_toNat]
  exact hc

example : sampleElf.vaddrToFileOffset 0x200 = .ok 3 ∧ Char.ofNat 0 ∉ cs!"ab" ∧
    sampleElf.data.drop 3 = cs!"ab".flatMap String.utf8EncodeChar ++ 0 :: [7, 8] := by decide

/-- C14: when the bytes before the first NUL are not the encoding of any text, a UnicodeDecodeError is raised. -/
theorem C14_read_string_invalid (e : Elf) (va off : Nat) (bs post : Bytes)
    (hoff : e.vaddrToFileOffset va = .ok off) (hnul : (0 : UInt8) ∉ bs) (hdata : e.data.drop off = bs ++ 0 :: post)
    (hbad : ∀ s : Str, s.flatMap String.utf8EncodeChar ≠ bs) : e.vaddrReadString va = .error .unicode := by
  rw [vaddrReadString_eq e va off bs post hoff hnul hdata, decodeUtf8_error_iff]
  exact hbad

/-- an overlong form of `/`, a surrogate and a lone continuation byte are no encodings -/
example : (∀ s : Str, s.flatMap String.utf8EncodeChar ≠ [0xc0, 0xaf]) ∧
    (∀ s : Str, s.flatMap String.utf8EncodeChar ≠ [0x61, 0xed, 0xa0, 0x80]) ∧
    ∀ s : Str, s.flatMap String.utf8EncodeChar ≠ [0x80] := by
  simp only [← decodeUtf8_error_iff]; decide

/-- C14: whatever is returned is the text encoded by the bytes before the first NUL. -/
theorem C14_read_string_sound (e : Elf) (va off : Nat) (bs post : Bytes) (s : Str)
    (hoff : e.vaddrToFileOffset va = .ok off) (hnul : (0 : UInt8) ∉ bs) (hdata : e.data.drop off = bs ++ 0 :: post)
    (hs : e.vaddrReadString va = .ok s) : s.flatMap String.utf8EncodeChar = bs := by
  rw [vaddrReadString_eq e va off bs post hoff hnul hdata, decodeUtf8_iff] at hs
  exact hs

example : decodeUtf8 [0xe2, 0x82, 0xac, 0x20, 0xc3, 0xa9] = .ok cs!"€ é" := by decide

/-- C15 is false of the code: at a mapped address of a file without a NUL byte the loop never stops. -/
theorem C15_read_string_terminates_refuted :
    ∃ (e : Elf) (va off : Nat) (b : UInt8) (ahead : Bytes),
      e.vaddrToFileOffset va = .ok off ∧ e.data.drop off = b :: ahead ∧
      ∀ n, (ReadStr.steps n ⟨[b], ahead⟩).isSome = true :=
  ⟨sampleElf, 0x203, 6, 7, [8], by decide, by decide, fun n => ReadStr.steps_forever n _ (by decide) (by decide)⟩

/-- C15, exactly when it holds: reading at a file offset inside the file stops if and only if a NUL byte lies
at or after it. Missing for the full property: files without one. -/
theorem C15_read_string_terminates_partial (b : UInt8) (ahead : Bytes) :
    (∃ n s, ReadStr.steps n ⟨[b], ahead⟩ = some s ∧ s.step = none) ↔ (0 : UInt8) ∈ b :: ahead := by
  obtain ⟨h1, h2⟩ := readStrLoop_iff_steps [b] ahead
  constructor
  · rintro ⟨n, s, hs, hstop⟩
    by_contra hno
    have hh := ReadStr.steps_forever (n + 1) ⟨[b], ahead⟩
      (by simp; intro hb; exact hno (by simp [hb]))
      (by intro x hx hx0; exact hno (by rw [← hx0]; simp [hx]))
    rw [ReadStr.steps_done n _ s hs 1] at hh
    simp [ReadStr.steps, hstop] at hh
  · intro hmem
    by_cases hb : b = 0
    · exact ⟨0, _, rfl, by simp [ReadStr.step, hb]⟩
    · have hm : (0 : UInt8) ∈ ahead := by
        rcases List.mem_cons.1 hmem with h | h
        · exact absurd h.symm hb
        · exact h
      obtain ⟨s, post, he, hns⟩ := List.eq_append_cons_of_mem hm
      rw [he] at h1 ⊢
      have := readStrLoop_nul [b] s post (by simpa using hb) (by simp)
        (fun x hx hx0 => hns (by rw [← hx0]; exact hx))
      obtain ⟨n, t, ht, hst, -⟩ := (h1 _).1 this
      exact ⟨n, t, ht, hst⟩

/-- C15: the value `hang` returned by the model is exactly non-termination of the loop. -/
theorem C15_hang_is_divergence (acc ahead : Bytes) :
    readStrLoop acc ahead = .error .hang ↔ ∀ n, (ReadStr.steps n ⟨acc, ahead⟩).isSome = true :=
  (readStrLoop_iff_steps acc ahead).2

/-- C15: at or past the end of the file the read does not loop but raises IndexError. -/
theorem C15_read_string_eof (e : Elf) (va off : Nat) (hoff : e.vaddrToFileOffset va = .ok off)
    (heof : e.data.length ≤ off) : e.vaddrReadString va = .error .index := by
  unfold Elf.vaddrReadString
  rw [hoff]
  simp [bind, Except.bind, List.drop_eq_nil_of_le heof]

example : ∃ e : Elf, ∃ va off, e.vaddrToFileOffset va = .ok off ∧ e.data.length ≤ off :=
  ⟨{ sampleElf with data := [1, 2] }, 0x200, 3, by decide, by decide⟩

/-! ## C16 -/

/-- `t` is the closest symbol above `s` by real address -/
def ClosestAbove (e : Elf) (s t : Symbol) : Prop :=
  t ∈ e.syms ∧ s.realVaddr < t.realVaddr ∧ ∀ u ∈ e.syms, ¬ (s.realVaddr < u.realVaddr ∧ u.realVaddr < t.realVaddr)

/-- C16 is false of the code: an object symbol at the odd address of a Thumb function is returned instead of
the function, whose real address is lower. -/
theorem C16_next_symbol_refuted :
    ∃ (e : Elf) (lines : List Str) (s t : Symbol), e.symbols = (extractSymbols EM_ARM lines).1 ∧ s ∈ e.syms ∧
      e.nextSymbol s = some t ∧ ¬ ClosestAbove e s t := by
  refine ⟨{ sampleElf with symbols := (extractSymbols EM_ARM
    [cs!"1: 10 4 FUNC L a", cs!"2: 21 1 OBJECT L b", cs!"3: 21 4 FUNC L c"]).1 }, _,
    ⟨0x10, 0x10, 4, cs!"FUNC", cs!"a"⟩, ⟨0x21, 0x21, 1, cs!"OBJECT", cs!"b"⟩, rfl, ?_, ?_, ?_⟩
  · decide +kernel
  · decide +kernel
  · rintro ⟨-, -, h⟩
    exact h ⟨0x21, 0x20, 4, cs!"FUNC", cs!"c"⟩ (by decide +kernel) (by decide)

/-- C16, the part that holds: tables in which no symbol other than a function has the odd address of a Thumb
function (in particular every non-ARM table). Missing: tables with such a pair. -/
theorem C16_next_symbol_partial (e : Elf) (lines : List Str) (he : e.symbols = (extractSymbols e.machine lines).1)
    (h32 : e.machine = EM_ARM → ∀ s ∈ e.syms, s.vaddr < 2 ^ 32)
    (hpair : e.machine = EM_ARM → ∀ f ∈ e.syms, ∀ t ∈ e.syms, f.type = cs!"FUNC" → t.type ≠ cs!"FUNC" →
      f.vaddr % 2 = 1 → t.vaddr ≠ f.vaddr)
    (s t : Symbol) (h : e.nextSymbol s = some t) : ClosestAbove e s t := by
  obtain ⟨hm, hmin⟩ := minByKey_spec _ _ _ h
  rw [List.mem_filter] at hm
  have hs : ∀ u ∈ e.syms, ∃ l, parseSymbolLine e.machine l = some u := by
    intro u hu
    obtain ⟨p, hp, rfl⟩ := List.mem_map.1 hu
    rw [he] at hp
    obtain ⟨l, -, hl, -⟩ := (extractSymbols_mem e.machine lines).1 p hp
    exact ⟨l, hl⟩
  refine ⟨hm.1, by simpa using hm.2, ?_⟩
  rintro u hu ⟨h1, h2⟩
  have hle : t.vaddr ≤ u.vaddr := hmin u (by rw [List.mem_filter]; exact ⟨hu, by simpa using h1⟩)
  obtain ⟨lt, hlt⟩ := hs t hm.1
  obtain ⟨lu, hlu⟩ := hs u hu
  obtain ⟨ta, tb⟩ := C12_thumb e.machine lt t hlt (fun ha => h32 ha t hm.1)
  obtain ⟨ua, ub⟩ := C12_thumb e.machine lu u hlu (fun ha => h32 ha u hu)
  by_cases hu' : e.machine = EM_ARM ∧ u.type = cs!"FUNC" ∧ u.vaddr % 2 = 1
  · have hur := ua hu'
    by_cases ht' : e.machine = EM_ARM ∧ t.type = cs!"FUNC" ∧ t.vaddr % 2 = 1
    · have := ta ht'; omega
    · have := tb ht'
      have heq : t.vaddr = u.vaddr := by omega
      refine hpair hu'.1 u hu t hm.1 hu'.2.1 ?_ hu'.2.2 heq
      intro htf
      exact ht' ⟨hu'.1, htf, by rw [heq]; exact hu'.2.2⟩
  · have := ub hu'
    by_cases ht' : e.machine = EM_ARM ∧ t.type = cs!"FUNC" ∧ t.vaddr % 2 = 1
    · have := ta ht'; omega
    · have := tb ht'; omega

/-- C16: nothing is returned exactly when no symbol lies above. -/
theorem C16_next_symbol_none (e : Elf) (s : Symbol) :
    e.nextSymbol s = none ↔ ∀ t ∈ e.syms, ¬ s.realVaddr < t.realVaddr := by
  unfold Elf.nextSymbol
  rw [minByKey_none, List.filter_eq_nil_iff]
  simp

/-- a Thumb table that satisfies the hypotheses -/
def sampleArm : Elf :=
  { sampleElf with machine := EM_ARM, symbols := (extractSymbols EM_ARM
    [cs!"1: 10 4 FUNC L a", cs!"2: 21 1 FUNC L b", cs!"3: 22 4 OBJECT L c"]).1 }

example : (sampleArm.machine = EM_ARM → ∀ s ∈ sampleArm.syms, s.vaddr < 2 ^ 32) ∧
    (sampleArm.machine = EM_ARM → ∀ f ∈ sampleArm.syms, ∀ t ∈ sampleArm.syms, f.type = cs!"FUNC" → t.type ≠ cs!"FUNC" →
      f.vaddr % 2 = 1 → t.vaddr ≠ f.vaddr) ∧
    sampleArm.nextSymbol ⟨0x10, 0x10, 4, cs!"FUNC", cs!"a"⟩ = some ⟨0x21, 0x20, 1, cs!"FUNC", cs!"b"⟩ := by
  decide +kernel

end Verif
