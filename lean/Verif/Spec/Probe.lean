import Verif.Spec.Images

/-!
# Specification vocabulary for probing the format of an image

A VMM that does not know the format of a kernel image tries the loaders one after the other, with the
same reader and the same guest memory, until one of them succeeds.
-/

namespace LinuxLoader.Spec

/-- The loaders. -/
inductive Format where
  | elf
  | bz
  | pe (arch : PeArch)
deriving DecidableEq

/-- `KernelLoader::load` of the format. -/
def Format.load (koff highmem : Option GuestAddr) : Format → LM LS LoadError LoadResult
  | .elf => elfLoad koff highmem
  | .bz => bzLoad koff highmem
  | .pe arch => peLoad arch koff highmem

/-- The header of the image is one of the format. -/
def Format.Recognises (img : List UInt8) : Format → Prop
  | .elf => ElfHeaderOk img
  | .bz => BzMagicOk img ∧ 0x200 ≤ bzVersion img ∧ bzLoadflags img % 2 = 1 ∧
      bzSetupBytes img ≤ img.length
  | .pe arch => 64 ≤ img.length ∧ PeMagicOk arch img

/-- Trying the loaders in order: the first that succeeds and its result; reader and memory afterwards. -/
def probe (koff highmem : Option GuestAddr) : List Format → LS → Option (Format × LoadResult) × LS
  | [], s => (none, s)
  | f :: fs, s =>
    match f.load koff highmem s with
    | (.ok r, s') => (some (f, r), s')
    | (_, s') => probe koff highmem fs s'

end LinuxLoader.Spec
