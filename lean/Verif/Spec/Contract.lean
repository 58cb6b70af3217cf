import Verif.Spec.Probe
import Verif.Spec.Elf

/-!
# Specification vocabulary for the arguments common to all loaders (C104)
-/

namespace LinuxLoader.Spec

/-- The bound set by `highmem_start_address`. -/
def highBound (highmem : Option GuestAddr) : Nat := highmem.elim 0 (·.toNat)

/-- The address of the image that the loader compares with the bound: entry point, `code32_start`, none. -/
def Format.start (img : List UInt8) : Format → Option Nat
  | .elf => some (elfEntry img)
  | .bz => some (bzCode32 img)
  | .pe _ => none

/-- The error of an image below the bound. -/
def Format.tooLow : Format → LoadError
  | .elf => .elf .invalidEntryAddress
  | _ => .invalidKernelStartAddress

end LinuxLoader.Spec
