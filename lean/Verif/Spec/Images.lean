import Verif.Model.BzImage
import Verif.Model.Pe
import Verif.Spec.Elf

/-!
# Specification vocabulary for bzImage and PE (`Image`) kernels and device tree blobs

Read off the bytes of the image, as the Linux boot protocol documents describe them. Bytes beyond the
end of the image count as 0.
-/

namespace LinuxLoader.Spec

/-- The reader never delivers fewer bytes than it could (it may still fail). -/
def NoShortReads (s : LS) : Prop := ∀ i k, s.rd.sched i ≠ .short k

/-! ## bzImage (Documentation/arch/x86/boot.rst) -/

/-- The setup header: 123 bytes at 0x1f1. -/
def bzHeader (img : List UInt8) : List UInt8 := (img.drop 0x1f1).take 123
/-- `HdrS` at 0x202. -/
def BzMagicOk (img : List UInt8) : Prop := (img.drop 0x202).take 4 = [0x48, 0x64, 0x72, 0x53]
/-- Boot protocol version at 0x206. -/
def bzVersion (img : List UInt8) : Nat := leField img 0x206 2
/-- Load flags at 0x211; bit 0 says that the kernel is loaded high. -/
def bzLoadflags (img : List UInt8) : Nat := leField img 0x211 1
/-- Default load address at 0x214. -/
def bzCode32 (img : List UInt8) : Nat := leField img 0x214 4
/-- Number of setup sectors at 0x1f1. -/
def bzSetupSects (img : List UInt8) : Nat := leField img 0x1f1 1
/-- Size of the real-mode part: boot sector and setup sectors, 0 setup sectors standing for 4. -/
def bzSetupBytes (img : List UInt8) : Nat :=
  ((if bzSetupSects img = 0 then 4 else bzSetupSects img) + 1) * 512
/-- The protected-mode kernel. -/
def bzKernel (img : List UInt8) : List UInt8 := img.drop (bzSetupBytes img)
/-- Where the kernel is loaded. -/
def bzAddress (img : List UInt8) (koff : Option GuestAddr) : Nat :=
  match koff with
  | some k => k.toNat
  | none => bzCode32 img

instance (img : List UInt8) : Decidable (BzMagicOk img) := by unfold BzMagicOk; infer_instance

/-- What can prevent a bzImage from being loaded, in the order in which it is reported. -/
def bzObstacles (img : List UInt8) (koff highmem : Option GuestAddr) (m : Mem) :
    List (LoadError × Prop) :=
  [(.bz .invalidBzImage, ¬ BzMagicOk img ∨ bzVersion img < 0x200 ∨ bzLoadflags img % 2 = 0),
   (.bz .underflow, img.length < bzSetupBytes img),
   (.invalidKernelStartAddress, ∃ h, highmem = some h ∧ bzCode32 img < h.toNat),
   (.bz .readBzImageCompressedKernel, ¬ Accessible m (bzAddress img koff) (bzKernel img).length),
   (.memoryOverflow, U64 ≤ bzAddress img koff + (bzKernel img).length)]

/-! ## PE (Documentation/arch/arm64/booting.rst, Documentation/arch/riscv/boot-image-header.rst) -/

/-- The magic number at 56: `ARM\x64` respectively `RSC\x05`. -/
def PeMagicOk (arch : PeArch) (img : List UInt8) : Prop :=
  (img.drop 56).take 4 = match arch with
    | .arm64 => [0x41, 0x52, 0x4d, 0x64]
    | .riscv64 => [0x52, 0x53, 0x43, 0x05]

instance (arch : PeArch) (img : List UInt8) : Decidable (PeMagicOk arch img) := by
  unfold PeMagicOk; infer_instance

/-- Image load offset at 8; for arm64 images without image size (at 16) it is 0x80000. -/
def peOffset (arch : PeArch) (img : List UInt8) : Nat :=
  if arch = .arm64 ∧ leField img 16 8 = 0 then 0x80000 else leField img 8 8

/-- Where the image is loaded. -/
def peAddress (arch : PeArch) (img : List UInt8) (koff : Option GuestAddr) : Nat :=
  koffBase koff + peOffset arch img

/-- What can prevent an `Image` from being loaded, in the order in which it is reported. -/
def peObstacles (arch : PeArch) (img : List UInt8) (koff : Option GuestAddr) (m : Mem) :
    List (LoadError × Prop) :=
  [(.pe .readImageHeader, img.length < 64),
   (.pe .invalidImageMagicNumber, ¬ PeMagicOk arch img),
   (.pe .invalidBaseAddrAlignment, ∃ k, koff = some k ∧ k.toNat % 0x200000 ≠ 0),
   (.pe .invalidImage, U64 ≤ peAddress arch img koff),
   (.pe .readKernelImage, ¬ Mapped m (peAddress arch img koff) img.length),
   (.memoryOverflow, U64 ≤ peAddress arch img koff + img.length)]

end LinuxLoader.Spec
