import Verif.Model.Py
/-! # Meaning of the machine code looked at by the dummy checks (C41, C42)

Small fragments of four instruction sets, written from the architecture manuals: Intel SDM volume 2 (ENDBR32/64, MOV
B8+r and C7 /0, DEC 48+r in 32-bit mode, RET C3, JMP EB/E9), the ARM ARM (Thumb-2 MVN immediate T1, BX T1), the MIPS
manual (ADDIU, JR with its delay slot) and the Power ISA (addi, std, stdu, ld, stw, stwu, lwz, mflr, mtlr, nop, bl,
blr). Anything else is `other`. x86 flags are not part of the state (they are not preserved by function calls). -/
set_option autoImplicit false

namespace Verif.Spec

/-- value of a little-endian list of bytes as a signed integer -/
def signedOf (bits : Nat) (n : Nat) : Int := if n < 2 ^ (bits - 1) then n else (n : Int) - 2 ^ bits

/-! ## x86 -/

/-- `rest` stands for everything except the accumulator: other registers and memory -/
structure X86 (R : Type) where
  rax : Nat
  rest : R

/-- how a piece of code ends: return to the caller, or a jump to an offset relative to its first byte -/
inductive X86End (R : Type) where
  | ret (s : X86 R)
  | jump (target : Int) (s : X86 R)
  | other

/-- 32-bit little-endian immediate -/
def imm32 (a b c d : UInt8) : Nat := a.toNat + 256 * (b.toNat + 256 * (c.toNat + 256 * d.toNat))

/-- run the code bytes, the first of which is at offset `pos`. In 64-bit mode a 32-bit destination clears the upper
half, and `REX.W C7 /0` sign-extends its immediate; in 32-bit mode the byte 48 is `dec eax`. -/
def x86Exec {R : Type} (mode64 : Bool) : Nat → Bytes → X86 R → X86End R
  | pos, 0xf3 :: 0x0f :: 0x1e :: 0xfa :: code, s => x86Exec mode64 (pos + 4) code s
  | pos, 0xf3 :: 0x0f :: 0x1e :: 0xfb :: code, s => x86Exec mode64 (pos + 4) code s
  | pos, 0xb8 :: a :: b :: c :: d :: code, s => x86Exec mode64 (pos + 5) code { s with rax := imm32 a b c d }
  | pos, 0xc7 :: 0xc0 :: a :: b :: c :: d :: code, s => x86Exec mode64 (pos + 6) code { s with rax := imm32 a b c d }
  | pos, 0x48 :: 0xc7 :: 0xc0 :: a :: b :: c :: d :: code, s =>
    if mode64 then
      x86Exec mode64 (pos + 7) code
        { s with rax := (signedOf 32 (imm32 a b c d) % 2 ^ 64).toNat }
    else x86Exec mode64 (pos + 7) code { s with rax := imm32 a b c d } -- dec eax; mov eax, imm
  | _, 0xc3 :: _, s => .ret s
  | pos, 0xeb :: r :: _, s => .jump (pos + 2 + signedOf 8 r.toNat) s
  | pos, 0xe9 :: a :: b :: c :: d :: _, s => .jump (pos + 5 + signedOf 32 (imm32 a b c d)) s
  | _, _, _ => .other

/-! ## Thumb-2 -/

/-- registers `r0`-`r15`; `rest` is everything else -/
structure Arm (R : Type) where
  r : Nat → Nat
  rest : R

/-- end of a piece of code: a branch to the address in a register -/
inductive ArmEnd (R : Type) where
  | branch (target : Nat) (s : Arm R)
  | other

/-- run Thumb-2 code (instructions are little-endian halfwords) -/
def thumbExec {R : Type} : Bytes → Arm R → ArmEnd R
  | a :: b :: code, s =>
    let hw := a.toNat + 256 * b.toNat
    if hw / 2 ^ 7 = 0b010001110 ∧ hw % 8 = 0 then .branch (s.r (hw / 8 % 16)) s   -- bx Rm
    else if hw = 0xf06f then                                                     -- mvn.w Rd, #imm8
      match code with
      | c :: d :: code' =>
        let hw2 := c.toNat + 256 * d.toNat
        if hw2 / 2 ^ 12 = 0 then
          thumbExec code' { s with r := fun i => if i = hw2 / 2 ^ 8 then 2 ^ 32 - 1 - hw2 % 2 ^ 8 else s.r i }
        else .other
      | _ => .other
    else .other
  | _, _ => .other

/-! ## MIPS -/

/-- general registers as signed (sign-extended) values; register 0 reads as 0 -/
structure Mips (R : Type) where
  r : Nat → Int
  rest : R

def Mips.get {R : Type} (s : Mips R) (i : Nat) : Int := if i = 0 then 0 else s.r i

/-- one instruction other than a jump: `addiu rt, rs, imm` (the 32-bit result is sign-extended) -/
def mipsSimple {R : Type} (w : Nat) (s : Mips R) : Option (Mips R) :=
  if w / 2 ^ 26 = 0b001001 then
    let v := signedOf 32 (((s.get (w / 2 ^ 21 % 32) + signedOf 16 (w % 2 ^ 16)) % 2 ^ 32).toNat)
    some { s with r := fun i => if i = w / 2 ^ 16 % 32 then v else s.r i }
  else none

/-- run code up to a `jr`: its target is read before the instruction in the delay slot is executed -/
def mipsExec {R : Type} : List Nat → Mips R → Option (Int × Mips R)
  | w :: ws, s =>
    if w / 2 ^ 26 = 0 ∧ w % 2 ^ 21 = 0b001000 then
      match ws with
      | d :: _ => (mipsSimple d s).map fun s' => (s.get (w / 2 ^ 21 % 32), s')
      | [] => none
    else
      match mipsSimple w s with
      | some s' => mipsExec ws s'
      | none => none
  | [], _ => none

/-! ## PowerPC -/

/-- what memory can do; nothing is assumed about it -/
structure PpcMem (w : Nat) where
  M : Type
  load : M → BitVec w → Nat → BitVec w
  store : M → BitVec w → Nat → BitVec w → M

structure Ppc {w : Nat} (mem : PpcMem w) where
  r : Nat → BitVec w
  lr : BitVec w
  m : mem.M

/-- signed 16-bit field -/
def ppcSI (w : Nat) (n : Nat) : BitVec w := BitVec.ofInt w (signedOf 16 (n % 2 ^ 16))

def Ppc.set {w : Nat} {mem : PpcMem w} (s : Ppc mem) (i : Nat) (v : BitVec w) : Ppc mem :=
  { s with r := fun j => if j = i then v else s.r j }

/-- base register of D-form instructions -/
def Ppc.base {w : Nat} {mem : PpcMem w} (s : Ppc mem) (i : Nat) : BitVec w := if i = 0 then 0 else s.r i

/-- one instruction other than branches -/
def ppcSimple {w : Nat} {mem : PpcMem w} (i : Nat) (s : Ppc mem) : Option (Ppc mem) :=
  let op := i / 2 ^ 26
  let t := i / 2 ^ 21 % 32
  let a := i / 2 ^ 16 % 32
  let dsForm := ppcSI w (i - i % 4)
  if i = 0x60000000 then some s                                                       -- nop
  else if op = 31 ∧ i % 2 ^ 21 = 0x802a6 then some (s.set t s.lr)                      -- mflr
  else if op = 31 ∧ i % 2 ^ 21 = 0x803a6 then some { s with lr := s.r t }              -- mtlr
  else if op = 14 then some (s.set t (s.base a + ppcSI w i))                           -- addi
  else if op = 32 then some (s.set t (mem.load s.m (s.base a + ppcSI w i) 4))          -- lwz
  else if op = 36 then some { s with m := mem.store s.m (s.base a + ppcSI w i) 4 (s.r t) }   -- stw
  else if op = 37 then                                                                 -- stwu
    let ea := s.r a + ppcSI w i
    some { r := fun j => if j = a then ea else s.r j, lr := s.lr, m := mem.store s.m ea 4 (s.r t) }
  else if op = 58 ∧ i % 4 = 0 then some (s.set t (mem.load s.m (s.base a + dsForm) 8))    -- ld
  else if op = 58 ∧ i % 4 = 1 then                                                     -- ldu
    let ea := s.r a + dsForm
    some ((s.set t (mem.load s.m ea 8)).set a ea)
  else if op = 62 ∧ i % 4 = 0 then some { s with m := mem.store s.m (s.base a + dsForm) 8 (s.r t) } -- std
  else if op = 62 ∧ i % 4 = 1 then                                                     -- stdu
    let ea := s.r a + dsForm
    some { r := fun j => if j = a then ea else s.r j, lr := s.lr, m := mem.store s.m ea 8 (s.r t) }
  else none

/-- run code up to `blr` and give the state then. `call` is the effect of a `bl`; `none` if control leaves in another
way (plain branch, end of the code, instruction not in the fragment). -/
def ppcExec {w : Nat} {mem : PpcMem w} (call : Ppc mem → Ppc mem) : List Nat → Ppc mem → Option (Ppc mem)
  | [], _ => none
  | i :: is, s =>
    if i = 0x4e800020 then some s
    else if i / 2 ^ 26 = 18 then
      if i % 4 = 1 then ppcExec call is (call s) else none
    else
      match ppcSimple i s with
      | some s' => ppcExec call is s'
      | none => none

/-- `stwu r1` or `stdu r1` -/
def isPush (w : Nat) : Bool := w / 2 ^ 16 == 0x9421 || w / 2 ^ 16 == 0xf821
/-- `addi r1, r1, n` -/
def isPop (w : Nat) : Bool := w / 2 ^ 16 == 0x3821

/-- shape of code for which the check is right -/
structure PlainPpcCode (ws : List Nat) : Prop where
  /-- the return is the last instruction -/
  last : ws.getLast? = some 0x4e800020
  /-- branches with opcode byte 4b are calls -/
  calls : ∀ i ∈ ws, i / 2 ^ 24 = 0x4b → i % 4 = 1
  /-- stores and loads of r0 on the stack do not update the stack pointer -/
  noUpdate : ∀ i ∈ ws, i / 2 ^ 16 = 0xf801 ∨ i / 2 ^ 16 = 0xe801 → i % 4 = 0
  /-- stores of the stack pointer to the stack do -/
  update : ∀ i ∈ ws, i / 2 ^ 16 = 0xf821 → i % 4 = 1
  /-- the frame is not the one size whose displacement has no positive counterpart -/
  frame : ∀ i ∈ ws, isPush i = true → i % 2 ^ 16 / 4 * 4 ≠ 0x8000
  onePush : ws.countP isPush ≤ 1
  onePop : ws.countP isPop ≤ 1

end Verif.Spec
