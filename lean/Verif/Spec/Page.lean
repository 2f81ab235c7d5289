import Verif.Spec.Output
import Verif.Model.Page
/-! # Specification of the HTML page in a browser (C97)

What the page looks like when it is opened, and what somebody clicking on it should see. From the model only the types of
pages and clicks are used, and the order of strings (by UTF-16 code units). -/
set_option autoImplicit false

namespace Verif.Spec

/-! ## Opening the page -/

/-- the tags of the header cells of a row -/
def thTags (row : Str) : List Str :=
  (tokens none row).filterMap fun t => match t with
    | .tag s => if s.take 2 = cs!"th" then some s else none
    | .chr _ => none

/-- the value of the attribute `class` of a tag -/
def classAttr : Str → Str
  | [] => []
  | c :: r => if cs!"class=\"".isPrefixOf (c :: r) then ((c :: r).drop 7).takeWhile (· ≠ '"') else classAttr r

/-- is it one of the classes of the tag -/
def hasClass (name tag : Str) : Bool := (splitWs (classAttr tag)).contains name

/-- the text of the cells of a row -/
def textsOf (row : Str) : List Str := (cellsOfRow row).map fun c => decodeRefs 0 c.2

/-- the table of a page, from its HTML: header row and other rows -/
def openPage (header : Str) (rows : List Str) : Page :=
  { ths := (thTags header).map fun t => ⟨hasClass cs!"sortable" t, hasClass cs!"ascending" t, hasClass cs!"descending" t⟩
    rows := rows.map fun r => { cells := textsOf r } }

/-! ## Columns -/

/-- the column where cell number `k` begins, given how many columns each cell covers -/
def columnOf (cells : List (Nat × Str)) (k : Nat) : Nat := ((cells.take k).map Prod.fst).sum

/-- the text of the cell that begins at a column -/
def cellAt : Nat → List (Nat × Str) → Option Str
  | _, [] => none
  | 0, (_, t) :: _ => some (decodeRefs 0 t)
  | c + 1, (n, _) :: r => if n ≤ c + 1 then cellAt (c + 1 - n) r else none

/-- the text of the cell below header cell `k` -/
def cellBelow (header row : Str) (k : Nat) : Option Str := cellAt (columnOf (cellsOfRow header) k) (cellsOfRow row)

/-- the columns of a page: their names, and what is below them -/
def HeaderCells (numReg : Option Str) (argRegs : Option (List Str)) (n : Nat) (header : Str) : Prop :=
  ∃ num args, cellsOfRow header = [(2, num), (1, cs!"Name"), (1, cs!"Symbol"), (1, cs!"Definition location"), (1, cs!"Kconfig")] ++ args ∧
    ((numReg = none → num = cs!"Number") ∧ (∀ r, numReg = some r → r ≠ [] → decodeRefs 0 num = cs!"Number&nbsp;(" ++ r ++ cs!")")) ∧
    args.length = n ∧ ∀ i c, args[i]? = some c → c.1 = 1 ∧
      ∀ regs r, argRegs = some regs → regs[i]? = some r → decodeRefs 0 c.2 = cs!"Arg " ++ natRepr (i + 1) ++ cs!" (" ++ r ++ cs!")"

/-! ## What is seen -/

/-- What is seen of the table: the original positions of the rows, from top to bottom, which of them are highlighted, and the
column and direction that are marked. -/
structure View where
  order : List Nat
  lit : Nat → Bool
  col : Nat
  desc : Bool

/-- the rows are in order: `less k i j` says that row `i` has less than row `j` in column `k` -/
def InOrder (less : Nat → Nat → Nat → Prop) (k : Nat) (desc : Bool) (order : List Nat) : Prop :=
  order.Pairwise fun i j => if desc then ¬ less k i j else ¬ less k j i

/-- What a click does. A click on one of the first `n` header cells sorts by that column: the same rows, in order, rows that are
equal there staying in their order; downwards when the column was already marked as ascending, else upwards. A click on a row
highlights it, or no more. -/
inductive Seen (less : Nat → Nat → Nat → Prop) (n : Nat) : View → Click → View → Prop where
  | sort (v : View) (k : Nat) (desc : Bool) (order : List Nat) : k < n → (desc = true ↔ v.col = k ∧ v.desc = false) →
      order.Perm v.order → InOrder less k desc order →
      (∀ i j, List.Sublist [i, j] v.order → ¬ less k i j → ¬ less k j i → List.Sublist [i, j] order) →
      Seen less n v (.header k) { v with order := order, col := k, desc := desc }
  | plain (v : View) (k : Nat) : n ≤ k → Seen less n v (.header k) v
  | light (v : View) (p i : Nat) : v.order[p]? = some i →
      Seen less n v (.row p) { v with lit := fun j => if j = i then !v.lit j else v.lit j }
  | beside (v : View) (p : Nat) : v.order[p]? = none → Seen less n v (.row p) v

/-- what a sequence of clicks does -/
inductive SeenAll (less : Nat → Nat → Nat → Prop) (n : Nat) : View → List Click → View → Prop where
  | nil (v : View) : SeenAll less n v [] v
  | cons {v v' v'' : View} {c : Click} {cs : List Click} : Seen less n v c v' → SeenAll less n v' cs v'' →
      SeenAll less n v (c :: cs) v''

/-- the page opened: rows as they were written, the first column marked -/
def firstView (len : Nat) : View := ⟨List.range len, fun _ => false, 0, false⟩

/-- the page shows the view: the rows unchanged but for the order, and one header cell marked -/
def Shows (opened p : Page) (v : View) : Prop :=
  p.rows.map some = v.order.map (fun i => opened.rows[i]?.map fun r => { r with highlight := v.lit i }) ∧
  p.ths.length = opened.ths.length ∧
  ∀ k h, p.ths[k]? = some h → h.ascending = (decide (k = v.col) && !v.desc) ∧ h.descending = (decide (k = v.col) && v.desc)

/-- the order of the rows of a page: by number in the first column, by text in the others -/
def LessIn (scs : List Syscall) (header : Str) (rows : List Str) (k i j : Nat) : Prop :=
  if k = 0 then ∃ a b, scs[i]? = some a ∧ scs[j]? = some b ∧ a.number < b.number
  else ∃ a b s t, rows[i]? = some a ∧ rows[j]? = some b ∧ cellBelow header a k = some s ∧ cellBelow header b k = some t ∧ utf16Units s < utf16Units t

/-- the text that UTF-16 code units stand for, read as the Unicode standard says (none for a surrogate alone) -/
def ofUnits : List Nat → Option Str
  | [] => some []
  | u :: us =>
    if 0xd800 ≤ u ∧ u < 0xdc00 then
      match us with
      | [] => none
      | l :: us => if 0xdc00 ≤ l ∧ l < 0xe000 then (ofUnits us).map (Char.ofNat (0x10000 + 0x400 * (u - 0xd800) + (l - 0xdc00)) :: ·) else none
    else if 0xdc00 ≤ u ∧ u < 0xe000 ∨ 0x10000 ≤ u then none
    else (ofUnits us).map (Char.ofNat u :: ·)
end Verif.Spec
