import Verif.Model.Output
/-!
# Specifications for the three output formats (C61, C70-C72)

A reader for each format, independent of the writer: what an aligned text table is, a JSON reader, and a reader
of the cells of an HTML table row. From the model only the data types (`Syscall`, `Path.str`, `Json`) and the
number readers (`natOfDigits`, `natOfHex`) are used.
-/
set_option autoImplicit false

namespace Verif.Spec

/-! ## Text -/

/-- only spaces -/
def AllSpaces (s : Str) : Prop := ∀ c ∈ s, c = ' '

/-- `line` shows `cells` in columns starting at the offsets `offs`: from the start of column `k` to the start of
the next one there is the full text of cell `k` and at least two spaces; from the start of the last column to
the end of the line there is the full text of the last cell, then spaces only. -/
def Aligned (offs : List Nat) (cells : List Str) (line : Str) : Prop :=
  offs[0]? = some 0 ∧ offs.length = cells.length ∧
  ∀ (k o : Nat) (c : Str), offs[k]? = some o → cells[k]? = some c →
    (∀ o', offs[k + 1]? = some o' →
      o' ≤ line.length ∧ ∃ pad, AllSpaces pad ∧ 2 ≤ pad.length ∧ (line.take o').drop o = c ++ pad) ∧
    (offs[k + 1]? = none → o ≤ line.length ∧ ∃ pad, AllSpaces pad ∧ line.drop o = c ++ pad)

/-- the INDEX column: right aligned decimal, or a dash -/
def IndexCell : Option Nat → Str → Prop
  | none, t => t = cs!"-  "
  | some i, t => 3 ≤ t.length ∧ ∃ pad digits, t = pad ++ digits ∧ AllSpaces pad ∧ (3 < t.length → pad = []) ∧
      digits ≠ [] ∧ (∀ c ∈ digits, isDigit c = true) ∧ natOfDigits digits = i

/-- `0x` and the digits of the number -/
def HexCell (n : Nat) (t : Str) : Prop :=
  ∃ h, t = cs!"0x" ++ h ∧ h ≠ [] ∧ (∀ c ∈ h, isHexDigit c = true) ∧ natOfHex h = n

/-- the LOCATION column: nothing, the file, or the file and the line; marked when not reliable -/
def LocationCell (sc : Syscall) (t : Str) : Prop :=
  (sc.file = none ∧ t = []) ∨
  ∃ f place, sc.file = some f ∧
    ((sc.line = none ∧ place = f.str) ∨ (sc.line = some 0 ∧ place = f.str) ∨
      ∃ l, sc.line = some l ∧ 0 < l ∧ place = f.str ++ cs!":" ++ natRepr l) ∧
    t = if sc.goodLocation then place else cs!"(?) " ++ place

/-- the KCONFIG column: the option without its prefix -/
def KconfigCell (sc : Syscall) (t : Str) : Prop :=
  (sc.kconfig = none → t = []) ∧
  ∀ opt, sc.kconfig = some (cs!"CONFIG_" ++ opt) → ¬ (cs!"CONFIG_" <:+: opt) → t = opt

/-- the SIGNATURE column -/
def SignatureCell (sc : Syscall) (t : Str) : Prop :=
  (sc.signature = none → t = cs!"?") ∧ (sc.signature = some [] → t = cs!"void") ∧
  ∀ sig, sc.signature = some sig → sig ≠ [] → t = joinWith cs!", " sig

/-- the eight cells of a syscall -/
def CellsOf (sc : Syscall) (cells : List Str) : Prop :=
  ∃ i n o l k g, cells = [i, n, sc.name, o, sc.symbol.name, l, k, g] ∧
    IndexCell sc.index i ∧ HexCell sc.number n ∧
    (sc.origname = sc.name → o = []) ∧ (sc.origname ≠ sc.name → o = sc.origname) ∧
    LocationCell sc l ∧ KconfigCell sc k ∧ SignatureCell sc g

/-- The lines below the header, after a syscall numbered `prev` (if any): one line per syscall, with an empty
line before it when its number is more than one above the previous. -/
inductive Listing (offs : List Nat) : Option Nat → List Syscall → List Str → Prop where
  | nil (prev : Option Nat) : Listing offs prev [] []
  | next {prev : Option Nat} {sc : Syscall} {scs : List Syscall} {cells : List Str} {line : Str} {lines : List Str} :
      (∀ p, prev = some p → ¬ sc.number > p + 1) → CellsOf sc cells → Aligned offs cells line →
      Listing offs (some sc.number) scs lines → Listing offs prev (sc :: scs) (line :: lines)
  | gap {p : Nat} {sc : Syscall} {scs : List Syscall} {cells : List Str} {line : Str} {lines : List Str} :
      sc.number > p + 1 → CellsOf sc cells → Aligned offs cells line →
      Listing offs (some sc.number) scs lines → Listing offs (some p) (sc :: scs) ([] :: line :: lines)

/-! ## JSON -/

/-- JSON white space -/
def jsonWs (c : Char) : Bool := c == ' ' || c == '\n' || c == '\t' || c == '\r'

/-- skip white space -/
def skipWs (s : Str) : Str := s.dropWhile jsonWs

/-- After the opening quote: the UTF-16 code units of a string literal (characters outside the basic plane
written literally count as one unit), and the text after the closing quote. -/
def readUnits : Str → Option (List Nat × Str)
  | [] => none
  | c :: r =>
    if c = '"' then some ([], r)
    else if c = '\\' then
      match r with
      | [] => none
      | e :: r1 =>
        if e = 'u' then
          match r1 with
          | h1 :: h2 :: h3 :: h4 :: r2 =>
            if isHexDigit h1 && isHexDigit h2 && isHexDigit h3 && isHexDigit h4 then
              (readUnits r2).map fun p => (natOfHex [h1, h2, h3, h4] :: p.1, p.2)
            else none
          | _ => none
        else
          let unit : Option Nat :=
            if e = '"' then some 34 else if e = '\\' then some 92 else if e = '/' then some 47
            else if e = 'b' then some 8 else if e = 'f' then some 12 else if e = 'n' then some 10
            else if e = 'r' then some 13 else if e = 't' then some 9 else none
          match unit with
          | none => none
          | some u => (readUnits r1).map fun p => (u :: p.1, p.2)
    else if c.toNat < 32 then none
    else (readUnits r).map fun p => (c.toNat :: p.1, p.2)

/-- UTF-16 code units to characters: a high and a low surrogate form one character -/
def fromUtf16 : List Nat → Str
  | [] => []
  | [u] => [Char.ofNat u]
  | u :: v :: us =>
    if 0xd800 ≤ u ∧ u < 0xdc00 ∧ 0xdc00 ≤ v ∧ v < 0xe000 then
      Char.ofNat (0x10000 + (u - 0xd800) * 0x400 + (v - 0xdc00)) :: fromUtf16 us
    else Char.ofNat u :: fromUtf16 (v :: us)

/-- after the opening quote: the string and the rest -/
def readString (s : Str) : Option (Str × Str) := (readUnits s).map fun p => (fromUtf16 p.1, p.2)

mutual
/-- A JSON reader (numbers: natural numbers only): the value at the start of the text and the text after it. The
first argument bounds the number of nested calls. -/
def readValue : Nat → Str → Option (Json × Str)
  | 0, _ => none
  | n + 1, s =>
    match skipWs s with
    | [] => none
    | c :: r =>
      if c = '"' then (readString r).map fun p => (.str p.1, p.2)
      else if c = '[' then
        match skipWs r with
        | ']' :: r' => some (.arr [], r')
        | _ => (readElems n r).map fun p => (.arr p.1, p.2)
      else if c = '{' then
        match skipWs r with
        | '}' :: r' => some (.obj [], r')
        | _ => (readMembers n r).map fun p => (.obj p.1, p.2)
      else if isDigit c then
        some (.num (natOfDigits ((c :: r).takeWhile isDigit)), (c :: r).dropWhile isDigit)
      else if cs!"null".isPrefixOf (c :: r) then some (.null, (c :: r).drop 4)
      else if cs!"true".isPrefixOf (c :: r) then some (.bool true, (c :: r).drop 4)
      else if cs!"false".isPrefixOf (c :: r) then some (.bool false, (c :: r).drop 5)
      else none
/-- the elements of a non-empty array, up to its closing bracket -/
def readElems : Nat → Str → Option (List Json × Str)
  | 0, _ => none
  | n + 1, s =>
    match readValue n s with
    | none => none
    | some (j, r) =>
      match skipWs r with
      | ',' :: r' => (readElems n r').map fun p => (j :: p.1, p.2)
      | ']' :: r' => some ([j], r')
      | _ => none
/-- the members of a non-empty object, up to its closing brace -/
def readMembers : Nat → Str → Option (List (Str × Json) × Str)
  | 0, _ => none
  | n + 1, s =>
    match skipWs s with
    | '"' :: r =>
      match readString r with
      | none => none
      | some (k, r1) =>
        match skipWs r1 with
        | ':' :: r2 =>
          match readValue n r2 with
          | none => none
          | some (j, r3) =>
            match skipWs r3 with
            | ',' :: r4 => (readMembers n r4).map fun p => ((k, j) :: p.1, p.2)
            | '}' :: r4 => some ([(k, j)], r4)
            | _ => none
        | _ => none
    | _ => none
end

/-- `text` is a JSON document with value `j` -/
def IsJson (text : Str) (j : Json) : Prop := ∃ n, ∀ fuel, n ≤ fuel → readValue fuel text = some (j, [])

/-- `j` is an object with exactly the given members, no name twice, in whatever order -/
def Object (j : Json) (members : List (Str × Json)) : Prop :=
  ∃ l, j = .obj l ∧ l.Perm members ∧ (l.map Prod.fst).Nodup

/-- the value of the "kconfig" member: no prefix -/
def KconfigValue (k : Option Str) (j : Json) : Prop :=
  (k = none → j = .null) ∧
  (∀ opt, k = some (cs!"CONFIG_" ++ opt) → j = .str opt) ∧
  ∀ s, k = some s → ¬ (cs!"CONFIG_" <+: s) → j = .str s

/-- `null` or the value -/
def orNull {α : Type} (f : α → Json) : Option α → Json
  | none => .null
  | some x => f x

/-- the object of a syscall -/
def SyscallObject (sc : Syscall) (j : Json) : Prop :=
  ∃ k, KconfigValue sc.kconfig k ∧ Object j [
    (cs!"index", orNull .num sc.index), (cs!"number", .num sc.number),
    (cs!"name", .str sc.name), (cs!"origname", .str sc.origname), (cs!"symbol", .str sc.symbol.name),
    (cs!"file", orNull (fun f => .str f.str) sc.file), (cs!"line", orNull .num sc.line),
    (cs!"signature", orNull (fun l => .arr (l.map .str)) sc.signature),
    (cs!"esoteric", .bool sc.esoteric), (cs!"good_location", .bool sc.goodLocation),
    (cs!"grepped_location", .bool sc.greppedLocation), (cs!"kconfig", k)]

/-- the "kernel" object: `tag` is the version tag -/
def KernelObject (tag source : Str) (a : Arch) (j : Json) : Prop :=
  ∃ arch abi conv,
    Object j [(cs!"version", .str tag), (cs!"version_source", .str source), (cs!"architecture", arch), (cs!"abi", abi),
      (cs!"syscall_table_symbol", orNull .str a.tableName)] ∧
    Object arch [(cs!"name", .str a.kind.name), (cs!"bits", .num (if a.bits32 then 32 else 64))] ∧
    Object abi [(cs!"name", .str a.abi), (cs!"compat", .bool a.compat),
      (cs!"bits", .num (if a.abiBits32 then 32 else 64)), (cs!"calling_convention", conv)] ∧
    Object conv [(cs!"syscall_nr", orNull .str a.numReg),
      (cs!"parameters", orNull (fun l => .arr (l.map .str)) a.argRegs)]

/-! ## HTML -/

/-- a tag (what is between `<` and `>`) or a character of text -/
inductive Tok where
  | tag (s : Str)
  | chr (c : Char)
  deriving DecidableEq

/-- Split HTML into tags and characters; the first argument is the part of the current tag read so far. -/
def tokens : Option Str → Str → List Tok
  | _, [] => []
  | none, c :: r => if c = '<' then tokens (some []) r else .chr c :: tokens none r
  | some t, c :: r => if c = '>' then .tag t :: tokens none r else tokens (some (t ++ [c])) r

/-- the number after the first `colspan="` -/
def colspanAttr : Str → Option Nat
  | [] => none
  | c :: r =>
    if cs!"colspan=\"".isPrefixOf (c :: r) then some (natOfDigits (((c :: r).drop 9).takeWhile isDigit))
    else colspanAttr r

/-- columns covered by a cell: one by default, and also for 0 (HTML standard, 4.9.11: "If colspan is zero, set it
to 1 instead") -/
def columns (tag : Str) : Nat :=
  match colspanAttr tag with
  | some (n + 1) => n + 1
  | _ => 1

/-- is it `<td ...>` or `<th ...>` -/
def opensCell (t : Str) : Bool := t.take 2 == cs!"td" || t.take 2 == cs!"th"

/-- is it `</td>` or `</th>` -/
def closesCell (t : Str) : Bool := t == cs!"/td" || t == cs!"/th"

/-- The cells of a row: columns covered and text inside (without the tags). The first argument is the cell being
read. -/
def readCells : Option (Nat × Str) → List Tok → List (Nat × Str)
  | none, [] => []
  | some c, [] => [c]
  | cur, .tag t :: r =>
    if opensCell t then (match cur with | none => [] | some c => [c]) ++ readCells (some (columns t, [])) r
    else if closesCell t then (match cur with | none => [] | some c => [c]) ++ readCells none r
    else readCells cur r
  | none, .chr _ :: r => readCells none r
  | some (n, s), .chr c :: r => readCells (some (n, s ++ [c])) r

/-- the cells of a row of HTML -/
def cellsOfRow (row : Str) : List (Nat × Str) := readCells none (tokens none row)

/-- Decode the character references used by the template engine. The first argument counts characters to skip. -/
def decodeRefs : Nat → Str → Str
  | _, [] => []
  | n + 1, _ :: r => decodeRefs n r
  | 0, c :: r =>
    if cs!"&amp;".isPrefixOf (c :: r) then '&' :: decodeRefs 4 r
    else if cs!"&gt;".isPrefixOf (c :: r) then '>' :: decodeRefs 3 r
    else if cs!"&lt;".isPrefixOf (c :: r) then '<' :: decodeRefs 3 r
    else if cs!"&#39;".isPrefixOf (c :: r) then '\'' :: decodeRefs 4 r
    else if cs!"&#34;".isPrefixOf (c :: r) then '"' :: decodeRefs 4 r
    else c :: decodeRefs 0 r

/-- columns covered by a row -/
def width (row : Str) : Nat := ((cellsOfRow row).map Prod.fst).sum

/-- `n` is the largest number of arguments among the known signatures, and one is known -/
def MaxArgs (scs : List Syscall) (n : Nat) : Prop :=
  (∃ sc ∈ scs, ∃ sig, sc.signature = some sig ∧ sig.length = n) ∧
  ∀ sc ∈ scs, ∀ sig, sc.signature = some sig → sig.length ≤ n

/-- the LOCATION of a row, between white space -/
def HtmlPlace (sc : Syscall) (text : Str) : Prop :=
  ∃ a place b, text = a ++ place ++ b ∧ (∀ c ∈ a, isSpace c = true) ∧ (∀ c ∈ b, isSpace c = true) ∧
    (sc.file = none → place = cs!"unknown") ∧
    (∀ f, sc.file = some f → sc.line = none → place = f.str ++ cs!":??") ∧
    ∀ f l, sc.file = some f → sc.line = some l → place = f.str ++ cs!":" ++ natRepr l

/-- the cells after the first six: one per argument and a filler, or one for all -/
def SignatureCells (sc : Syscall) (cells : List (Nat × Str)) : Prop :=
  (sc.signature = none → cells.map Prod.snd = [cs!"unknown signature"]) ∧
  (sc.signature = some [] → cells.map Prod.snd = [cs!"void"]) ∧
  ∀ sig, sc.signature = some sig → sig ≠ [] →
    ∃ filler, cells = (cells.take sig.length) ++ filler ∧ (filler = [] ∨ ∃ n, filler = [(n, [])]) ∧
      (cells.take sig.length).map (fun c => (c.1, decodeRefs 0 c.2)) = sig.map fun arg => (1, arg)

/-- `row` shows the syscall -/
def HtmlRow (sc : Syscall) (row : Str) : Prop :=
  ∃ num hex name sym loc kconf sig, cellsOfRow row = [(1, num), (1, hex), (1, name), (1, sym), (1, loc), (1, kconf)] ++ sig ∧
    num ≠ [] ∧ (∀ c ∈ num, isDigit c = true) ∧ natOfDigits num = sc.number ∧ HexCell sc.number hex ∧
    decodeRefs 0 name = sc.name ∧ decodeRefs 0 sym = sc.symbol.name ∧ HtmlPlace sc (decodeRefs 0 loc) ∧
    (sc.kconfig = none → kconf = []) ∧
    (∀ opt, sc.kconfig = some (cs!"CONFIG_" ++ opt) → ¬ (cs!"CONFIG_" <:+: opt) → decodeRefs 0 kconf = opt ++ cs!"=y") ∧
    SignatureCells sc sig

end Verif.Spec
