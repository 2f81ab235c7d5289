import Verif.Spec.Machine
import Verif.Model.Arch
/-! # Specification of stubs: code that only returns an error (C129) -/
set_option autoImplicit false

namespace Verif.Spec

/-- x86: `endbr64`, `endbr32` or nothing -/
def Endbr (bs : Bytes) : Prop := bs = [] ∨ bs = [0xf3, 0x0f, 0x1e, 0xfa] ∨ bs = [0xf3, 0x0f, 0x1e, 0xfb]

/-- x86: `mov eax, err` or `mov rax, err`, where `err` is -ENOSYS (-38) or -EINVAL (-22) -/
def MovError (bs : Bytes) : Prop :=
  ∃ op b, bs = op ++ [b, 0xff, 0xff, 0xff] ∧ (op = [0xb8] ∨ op = [0x48, 0xc7, 0xc0]) ∧ (b = 0xda ∨ b = 0xea)

/-- x86: `ret`, or a jump (to the return thunk) -/
def Leave (bs : Bytes) : Prop := bs = [0xc3] ∨ (∃ d, bs = [0xeb, d]) ∨ ∃ a b c d, bs = [0xe9, a, b, c, d]

/-- PowerPC: `mflr r0`, `mtlr r0`, `nop`, `bl`, and saving and restoring of `r0` on the stack -/
def Harmless (i : Nat) : Prop :=
  i = 0x7c0802a6 ∨ i = 0x7c0803a6 ∨ i = 0x60000000 ∨ i / 2 ^ 24 = 0x4b ∨
    i / 2 ^ 16 = 0x9001 ∨ i / 2 ^ 16 = 0xf801 ∨ i / 2 ^ 16 = 0xe801 ∨ i / 2 ^ 16 = 0x8001

/-- PowerPC: `li r3, -ENOSYS; blr` with harmless instructions before, in between and after -/
inductive Returns : List Nat → Prop
  | mk (l m n : List Nat) : (∀ i ∈ l, Harmless i) → (∀ i ∈ m, Harmless i) → (∀ i ∈ n, Harmless i) →
      Returns (l ++ 0x3860ffda :: m ++ 0x4e800020 :: n)

/-- PowerPC: `stwu r1, -n(r1)` or `stdu r1, -n(r1)` -/
def MakesFrame (n i : Nat) : Prop := i = 0x94210000 + (0x10000 - n) ∨ n % 4 = 0 ∧ i = 0xf8210000 + (0x10000 - n) + 1

/-- PowerPC: the same, and a stack frame may be made and released along the way -/
inductive PpcStub : List Nat → Prop
  | plain (ws : List Nat) : Returns ws → PpcStub ws
  | framed (l m r : List Nat) (n push : Nat) : Returns (l ++ m ++ r) → 0 < n → n < 2 ^ 15 → MakesFrame n push →
      PpcStub (l ++ push :: m ++ (0x38210000 + n) :: r)

/-- the code of a function that does nothing but return an error, in the forms compilers give it -/
def Stub (kind : Kind) (big : Bool) (code : Bytes) : Prop :=
  match kind with
  | .x86 => ∃ a b c, code = a ++ b ++ c ∧ Endbr a ∧ MovError b ∧ Leave c
  /- `mvn.w r0, #21` or `#37`, `bx lr` -/
  | .arm => code = [0x6f, 0xf0, 0x15, 0x00, 0x70, 0x47] ∨ code = [0x6f, 0xf0, 0x25, 0x00, 0x70, 0x47]
  /- `jr ra; li v0, -22` or `-89` -/
  | .mips => unpackWords big code = .ok [0x03e00008, 0x2402ffea] ∨ unpackWords big code = .ok [0x03e00008, 0x2402ffa7]
  | .powerpc => ∃ ws, unpackWords big code = .ok ws ∧ PpcStub ws
  | .arm64 | .riscv => False

end Verif.Spec
