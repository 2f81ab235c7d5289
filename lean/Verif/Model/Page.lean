import Verif.Model.Output
/-! # Model of the script of the HTML page, /repo/src/systrack/templates/syscall_table.js

The page as far as the script can see and change it: the header cells with their classes, and the rows below with the text of
their cells. Not modelled: what clicks do besides (links, selections). -/
set_option autoImplicit false

namespace Verif

/-- a `th`: which of the classes used by the script it has -/
structure Th where
  sortable : Bool
  ascending : Bool
  descending : Bool
  deriving DecidableEq, Repr

/-- a `tr`: `textContent` of its children, and whether it has the class `highlight` -/
structure Tr where
  cells : List Str
  highlight : Bool := false
  deriving DecidableEq, Repr

/-- the table: the first row, and the others from top to bottom -/
structure Page where
  ths : List Th
  rows : List Tr
  deriving DecidableEq, Repr

/-- UTF-16 code units: what JavaScript strings are made of -/
def utf16Units (s : Str) : List Nat :=
  s.flatMap fun c =>
    if c.toNat < 0x10000 then [c.toNat]
    else [0xd800 + (c.toNat - 0x10000) / 0x400, 0xdc00 + (c.toNat - 0x10000) % 0x400]

/-- the values compared: a number (`none` is NaN) or a string -/
inductive JsVal where
  | num (n : Option Int)
  | str (s : Str)
  deriving DecidableEq, Repr

/-- `parseInt(s, 16)`: white space, a sign, `0x`, then as many digits as there are. Simplification: no rounding, which starts
at 2^53. -/
def parseInt16 (s : Str) : Option Int :=
  let s := s.dropWhile isSpace
  let neg := decide (s.head? = some '-')
  let s := if s.head? = some '-' ∨ s.head? = some '+' then s.drop 1 else s
  let s := if s.take 2 = cs!"0x" ∨ s.take 2 = cs!"0X" then s.drop 2 else s
  match s.takeWhile isHexDigit with
  | [] => none
  | ds => some (if neg then - (natOfHex ds : Int) else natOfHex ds)

/-- `va < vb`; numbers and strings are not mixed here, and NaN compares with nothing -/
def JsVal.lt : JsVal → JsVal → Bool
  | .num (some a), .num (some b) => decide (a < b)
  | .str a, .str b => decide (utf16Units a < utf16Units b)
  | _, _ => false

/-- syscall_table.js:11-16 `getValue`: no such child is a TypeError -/
def rowValue (idx : Nat) (r : Tr) : Res JsVal :=
  if idx = 0 then
    match r.cells[0]? with
    | some t => .ok (.num (parseInt16 t))
    | none => .error .type
  else
    match r.cells[idx + 1]? with
    | some t => .ok (.str t)
    | none => .error .type

/-- syscall_table.js:19-29 the comparison function, on the values of the rows -/
def compareValues (desc : Bool) (va vb : JsVal) : Int :=
  let p := if desc then (vb, va) else (va, vb)
  if p.2.lt p.1 then 1 else if p.1.lt p.2 then -1 else 0

/-- syscall_table.js:3-34 `sortTable`, for a click on the header cell number `idx` (the cells contain only text, so that it is the
target). `Array.prototype.sort` is stable (ECMAScript 2019); with a consistent comparison function, which is the case here
(`C97_clicks`), there is only one result. The rows are taken out of the body and put back in the new order, below the first
row. Simplification: values are computed before sorting. -/
def sortTable (idx : Nat) (p : Page) : Res Page :=
  match p.ths[idx]? with
  | none => .ok p
  | some header =>
    if p.rows.isEmpty then .error .type
    else do
      let desc := header.ascending
      let keyed ← mapRes (fun r => (rowValue idx r).map fun v => (v, r)) p.rows
      let sorted := keyed.mergeSort fun a b => decide (compareValues desc a.1 b.1 ≤ 0)
      let cleared := p.ths.map fun h => { h with ascending := false, descending := false }
      .ok { ths := cleared.modify idx fun h => if desc then { h with descending := true } else { h with ascending := true },
            rows := sorted.map Prod.snd }

/-- syscall_table.js:36-39 `highlightRow`, for a click on the row shown at position `i` -/
def highlightRow (i : Nat) (p : Page) : Page :=
  { p with rows := p.rows.modify i fun r => { r with highlight := !r.highlight } }

/-- a click into the table: on a header cell, or on one of the rows, given by their position at that time -/
inductive Click where
  | header (idx : Nat)
  | row (i : Nat)
  deriving DecidableEq, Repr

/-- syscall_table.js:41-42: only header cells with the class `sortable` react, and all rows but the first -/
def click (p : Page) : Click → Res Page
  | .header idx =>
    match p.ths[idx]? with
    | some h => if h.sortable then sortTable idx p else .ok p
    | none => .ok p
  | .row i => .ok (highlightRow i p)

/-- clicks one after the other -/
def clicks (p : Page) : List Click → Res Page
  | [] => .ok p
  | c :: cs => do
    let p ← click p c
    clicks p cs

end Verif
