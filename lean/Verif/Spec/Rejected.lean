import Verif.Spec.Main
/-! # Specification for C102: images that are not analysed, and what the user is told -/
set_option autoImplicit false

namespace Verif.Spec

/-- the hint about `--arch help` -/
def archHint (prog : Str) : Str := cs!"See '" ++ prog ++ cs!" --arch help' for more information"

/-- for an image without a version -/
def versionLines : List Str :=
  [cs!"Unable to determine kernel version!", cs!"Did you specify a valid kernel source directory (--kdir) or vmlinux path?"]

/-- for an image without symbols -/
def symbolLines : List Str :=
  [cs!"The provided kernel image has no symbols, which are necessary for Systrack to work.",
   cs!"You can try unstripping the image with tools such as \"vmlinux-to-elf\"."]

/-- `Rejected prog n e lines`: with the architecture `n` from the command line (or none), an image with symbols is
rejected, and the user is told these lines. -/
inductive Rejected (prog : Str) : Option Str → Elf → List Str → Prop where
  /-- no architecture was named and the machine is not a supported one -/
  | unsupported (e : Elf) : (∀ k b, (e.machine, k, b) ∉ machineTable) →
      Rejected prog none e [cs!"Failed to detect kernel architecture/ABI", archHint prog]
  /-- no architecture was named and the kernel has several ABIs -/
  | several (e : Elf) (k : Kind) (b : Bool) (abis : List Str) : archFromVmlinux e = .ok (some (k, b, abis)) → 2 ≤ abis.length →
      Rejected prog none e [cs!"Detected architecture: " ++ k.name, cs!"Detected ABIs: " ++ joinWith cs!", " abis,
        cs!"This kernel was built with support for multiple syscall ABIs.",
        cs!"Select one using --arch NAME (see --arch HELP for more info)."]
  /-- the only ABI was detected, but there is no version -/
  | noVersion (e : Elf) (k : Kind) (b : Bool) (abi : Str) : archFromVmlinux e = .ok (some (k, b, [abi])) →
      versionFromVmlinux e = .ok none → Rejected prog none e versionLines
  /-- an architecture was named, but there is no version -/
  | noVersionNamed (e : Elf) (n : Str) : versionFromVmlinux e = .ok none → Rejected prog (some n) e versionLines
  /-- the image is not one of the architecture named: other machine, or other class of ELF (PowerPC only for big-endian
  images, see C25) -/
  | mismatch (e : Elf) (row : HelpRow) (n : Str) (v : Ver) : row ∈ helpTable → n ∈ row.value :: row.aliases →
      versionFromVmlinux e = .ok (some v) → minVersion row.kind row.abi row.kernel32 ≤ v →
      (row.kind = .powerpc → e.bigEndian = true) → ¬ (e.bits32 = row.kernel32 ∧ IsFor row.kind e) →
      Rejected prog (some n) e [cs!"Architecture " ++ n ++ cs!" does not match provided vmlinux", archHint prog]

end Verif.Spec
