import Verif.Spec.Elf
import Verif.Model.Elf
/-! # Specifications for names and signatures (C20, C47-C52) -/
set_option autoImplicit false

namespace Verif.Spec

/-! ## C20 -/

/-- number of names that start with `p` -/
def countStarting (p : Str) (names : List Str) : Nat := (names.filter fun n => decide (p <+: n)).length

/-! ## Source text of argument lists -/

/-- text after the first word of a field: blanks, further words, and `__user` annotations preceded by a space -/
inductive Rest : List Str → Str → Prop
  | done (b : Str) : (∀ c ∈ b, isSpace c = true) → Rest [] b
  | word (b w rest : Str) (ws : List Str) : b ≠ [] → (∀ c ∈ b, isSpace c = true) → Rest ws rest →
      Rest (w :: ws) (b ++ w ++ rest)
  | user (b rest : Str) (ws : List Str) : (∀ c ∈ b, isSpace c = true) → Rest ws rest →
      Rest ws (b ++ cs!" __user" ++ rest)

/-- `f` is a layout of the words `ws`: arbitrary blanks between and around them, `__user` anywhere after the first -/
inductive FieldText : List Str → Str → Prop
  | mk (b w rest : Str) (ws : List Str) : (∀ c ∈ b, isSpace c = true) → Rest ws rest →
      FieldText (w :: ws) (b ++ w ++ rest)

/-- a C token sequence without blanks, commas and parentheses, that does not start with `__user` -/
def CleanWord (w : Str) : Prop :=
  w ≠ [] ∧ (∀ c ∈ w, isSpace c = false ∧ c ≠ ',' ∧ c ≠ '(' ∧ c ≠ ')') ∧ ¬ cs!"__user" <+: w

/-- no lone star between two others (`* * *`): the code joins stars pairwise only -/
def NoTriple (ws : List Str) : Prop :=
  ∀ pre a c post, ws = pre ++ a :: cs!"*" :: c :: post → ¬ (a.getLast? = some '*' ∧ c.head? = some '*')

/-- words joined by one space, except that adjacent stars are joined directly -/
def glue : List Str → Str
  | [] => []
  | [w] => w
  | w :: v :: ws =>
    if w.getLast? = some '*' ∧ v.head? = some '*' then w ++ glue (v :: ws) else w ++ ' ' :: glue (v :: ws)

/-- an argument as reported: type, then a space unless the type ends with a star, then the name -/
def argText (ty name : Str) : Str := if ty.getLast? = some '*' then ty ++ name else ty ++ ' ' :: name

/-- The macros that stand for a 64-bit argument in two halves. -/
def wideMacros : List Str := [cs!"SC_ARG64", cs!"arg_u32p", cs!"compat_arg_u64_dual", cs!"compat_arg_u64"]

/-- the two halves, in memory order -/
def halves (big : Bool) (x : Str) : List Str := if big then [x ++ cs!"_hi", x ++ cs!"_lo"] else [x ++ cs!"_lo", x ++ cs!"_hi"]

/-- An item of the argument list of a `SYSCALL_DEFINEn`. -/
inductive Item where
  /-- `type words, name` -/
  | arg (ty : List Str) (name : Str)
  /-- `MACRO(x)` -/
  | wide (mac x : Str)

/-- the comma separated fields of an item, each as its words -/
def Item.fields : Item → List (List Str)
  | .arg ty name => [ty, [name]]
  | .wide mac x => [[mac ++ cs!"(" ++ x ++ cs!")"]]

def Item.WF : Item → Prop
  | .arg ty name => ty ≠ [] ∧ (∀ w ∈ ty, CleanWord w) ∧ NoTriple ty ∧ CleanWord name
  | .wide mac x => mac ∈ wideMacros ∧ CleanWord x

/-- what must be reported for an item -/
def Item.sig (big : Bool) : Item → List Str
  | .arg ty name => [argText (glue ty) name]
  | .wide _ x => (halves big x).map (argText cs!"u32")

/-- The definition macros. -/
def defineMacros : List Str :=
  [cs!"SYSCALL_DEFINE", cs!"SYSCALL32_DEFINE", cs!"COMPAT_SYSCALL_DEFINE", cs!"COMPAT_SYSCALL32_DEFINE",
   cs!"PPC32_SYSCALL_DEFINE"]

/-- The source lines `body`, without their indentation and trailing blanks, spell `text`, and no line before the
last one completes a text that ends with a closing parenthesis. -/
def Spells (body : List Str) (text : Str) : Prop :=
  body ≠ [] ∧ (body.map strip).flatten = text ∧
  ∀ k, 0 < k → k < body.length → ((body.take k).map strip).flatten.getLast? ≠ some ')'

/-- no parenthesis in the text -/
def NoParen (s : Str) : Prop := '(' ∉ s ∧ ')' ∉ s

/-- The text read for a line of a file: stripped lines from there on, up to the first one after which it ends with `)`. -/
def TextAt (lines : List Str) (line : Nat) (text : Str) : Prop :=
  ∃ body post, lines.drop (line - 1) = body ++ post ∧ Spells body text ∧ text.getLast? = some ')'

/-! ## Memory images (C51) -/

/-- the file stores `bs` at virtual address `va` -/
def Holds (e : Elf) (va : Nat) (bs : Bytes) : Prop := ∃ off, e.vaddrToFileOffset va = .ok off ∧ bs <+: e.data.drop off

/-- a NUL terminated string at `va`, in UTF-8 -/
def HoldsStr (e : Elf) (va : Nat) (s : Str) : Prop :=
  Char.ofNat 0 ∉ s ∧ Holds e va (s.flatMap String.utf8EncodeChar ++ [0])

/-- an array of pointers at `va` -/
def HoldsPtrs (e : Elf) (va : Nat) (ptrs : List Nat) : Prop :=
  ∀ (i p : Nat), ptrs[i]? = some p →
    p < 256 ^ (if e.bits32 then 4 else 8) ∧ Holds e (va + i * (if e.bits32 then 4 else 8)) (encUint e.bigEndian (if e.bits32 then 4 else 8) p)

/-- one `struct syscall_metadata` object: name without `sys_`, and (words of the type, name) of each argument -/
structure MetaSpec where
  name : Str
  args : List (List Str × Str)

/-- words of the type without blanks, and names without surrounding blanks -/
def MetaSpec.WF (m : MetaSpec) : Prop :=
  (∀ c, m.name.getLast? = some c → isSpace c = false) ∧
  ∀ a ∈ m.args, a.1 ≠ [] ∧ NoTriple a.1 ∧ (∀ w ∈ a.1, w ≠ [] ∧ ∀ c ∈ w, isSpace c = false) ∧
    (∀ c, a.2.head? = some c → isSpace c = false) ∧ (∀ c, a.2.getLast? = some c → isSpace c = false)

/-- the signature that must be reported -/
def MetaSpec.sig (m : MetaSpec) : List Str := m.args.map fun a => argText (glue a.1) a.2

/-- the object is in memory at `ptr`, laid out as in the kernel: `const char *name; int syscall_nr; int nb_args;
const char **types; const char **args` -/
def HoldsMeta (e : Elf) (ptr : Nat) (m : MetaSpec) : Prop :=
  ∃ (namep nr typesp argsp : Nat) (tps aps : List Nat),
    let w := if e.bits32 then 4 else 8
    namep < 256 ^ w ∧ typesp < 256 ^ w ∧ argsp < 256 ^ w ∧ m.args.length < 2 ^ 31 ∧
    Holds e ptr (encUint e.bigEndian w namep ++ encUint e.bigEndian 4 nr ++ encUint e.bigEndian 4 m.args.length ++
      encUint e.bigEndian w typesp ++ encUint e.bigEndian w argsp) ∧
    HoldsStr e namep (cs!"sys_" ++ m.name) ∧
    (m.args ≠ [] → typesp ≠ 0 ∧ argsp ≠ 0) ∧
    tps.length = m.args.length ∧ aps.length = m.args.length ∧
    HoldsPtrs e typesp tps ∧ HoldsPtrs e argsp aps ∧
    (∀ (i : Nat) (t : List Str) (a : Str), m.args[i]? = some (t, a) →
      ∃ tp ap, tps[i]? = some tp ∧ aps[i]? = some ap ∧ HoldsStr e tp (joinWith cs!" " t) ∧ HoldsStr e ap a)

end Verif.Spec
