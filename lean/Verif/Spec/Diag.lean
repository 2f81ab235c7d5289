import Verif.Model.Diag
import Verif.Spec.Kernel
/-! # What messages about the analysis should say -/
set_option autoImplicit false

namespace Verif.Spec

/-- the texts shown for the calls with the given format, in order; `none` where a traceback is shown instead -/
def texts (fmt : Str) (log : List LogCall) : List (Option Str) := (log.filter fun c => decide (c.fmt = fmt)).map LogCall.text

/-! Formats of messages: `%s` stands for a text, `%d` and `%x` for a number. -/

def fmtRepeated : Str := cs!"Interesting! Vaddr found %d times: %s"
def fmtNotImplemented : Str := cs!"Assuming %s is not implemented as it points to %s:%d after adjustments"
def fmtBadLocation : Str := cs!"Potentially bad location for %s (%s): %s:%s%s"
def fmtNoLocation : Str := cs!"Unable to find location for %s (%s)"
def fmtNoSignature : Str := cs!"Unable to extract signature for %s (%s)"
def fmtOutside : Str := cs!"Virtual address 0x%x idx %d is outside %s: something is off!"
def fmtMostFrequent : Str :=
  cs!"Interesting! I was expecting *_ni_syscall to be the most frequent symbol in the syscall table, but %s is (appearing %d times)."

/-- a path as shown to the user: relative to the source directory when it is inside -/
def shownPath (kdir : Option Path) (f : Path) : Path :=
  match kdir with
  | some k => if f.abs = k.abs ∧ k.parts <+: f.parts then ⟨false, f.parts.drop k.parts.length⟩ else f
  | none => f

/-- not confirmed by the sources, and located in kernel/sys_ni.c -/
def inSysNi (kdir : Option Path) (sc : Syscall) : Bool :=
  !sc.esoteric && !sc.goodLocation && sc.file.any fun f => decide ([cs!"kernel", cs!"sys_ni.c"] <:+ (shownPath kdir f).parts)

/-- has a location, not confirmed by the sources -/
def unconfirmed (sc : Syscall) : Bool := !sc.esoteric && !sc.goodLocation && sc.file.isSome

/-- the guess about the reason, from the extension of the file -/
def reason (file : Path) : Str :=
  match file.parts.getLast? with
  | some n =>
    if cs!".S" <:+ n then cs!" (implemented in asm?)"
    else if cs!".c" <:+ n then cs!" (normal function w/o asmlinkage?)" else []
  | none => []

/-- a line number, if known -/
def lineText (line : Option Nat) : Str := match line with | some n => natRepr n | none => cs!"None"

end Verif.Spec
