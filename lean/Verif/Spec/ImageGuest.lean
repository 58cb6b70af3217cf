import Verif.Spec.Boot
import Verif.Spec.StartInfo

/-!
# What an arm64 or riscv64 guest finds when it starts

Written down from Documentation/arch/arm64/booting.rst, Documentation/arch/riscv/boot-image-header.rst
and the Devicetree Specification (flattened format), over a memory given as a function from addresses to
bytes.
-/

namespace LinuxLoader.Spec

/-- The magic number of the image loaded at `a`: `ARM\x64` respectively `RSC\x05`. -/
def imageMagicOk (arch : PeArch) (f : Nat → UInt8) (a : Nat) : Prop :=
  Holds f (a + 56) (match arch with
    | .arm64 => [0x41, 0x52, 0x4d, 0x64]
    | .riscv64 => [0x52, 0x53, 0x43, 0x05])

/-- The text offset of the image loaded at `a`: its field at 8; 0x80000 for arm64 images whose image
size (field at 16) is 0. -/
def imageTextOffset (arch : PeArch) (f : Nat → UInt8) (a : Nat) : Nat :=
  if arch = .arm64 ∧ readLE f (a + 16) 8 = 0 then 0x80000 else readLE f (a + 8) 8

/-- The memory the image loaded at `a` needs, including its uninitialised data: field at 16. -/
def imageSize (f : Nat → UInt8) (a : Nat) : Nat := readLE f (a + 16) 8

/-- The big-endian integer of the first `n` bytes. -/
def readBE (f : Nat → UInt8) (x : Nat) : Nat → Nat
  | 0 => 0
  | n + 1 => (f x).toNat * 256 ^ n + readBE f (x + 1) n

/-- The device tree blob the guest sees at `a`: as many bytes as `totalsize` (at 4) says. -/
def fdtSeen (f : Nat → UInt8) (a : Nat) : List UInt8 :=
  (List.range (readBE f (a + 4) 4)).map fun i => f (a + i)

/-- A blob as a file: `totalsize` does not exceed the size of the file. -/
def fdtTotal (blob : List UInt8) : Nat := readBE (fun i => (blob[i]?).getD 0) 4 4

end LinuxLoader.Spec
