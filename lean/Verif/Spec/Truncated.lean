import Verif.Spec.Footprint

/-!
# Specification vocabulary: truncated kernel images

A download that was cut off, a disk that was full: the first `n` bytes of an image.
-/

namespace LinuxLoader.Spec

/-- The same reader and guest memory, where the image has been cut off after `n` bytes. -/
def _root_.LinuxLoader.LS.truncate (s : LS) (n : Nat) : LS := s.withImage (s.rd.data.take n)

/-- The first `n` bytes of the ELF image lack a part of the ELF header, of a program header, or of the
contents of a loadable segment. -/
def ElfLacks (img : List UInt8) (n : Nat) : Prop :=
  n < 64 ∨ (∃ i, i < elfPhnum img ∧ n < elfPhoff img + 56 * i + 56) ∨
    ∃ h ∈ elfLoadable img, n < h.offset + h.filesz

/-- `syssize` of a bzImage at 0x1f4: the size of the protected-mode kernel in units of 16 bytes. -/
def bzSyssize (img : List UInt8) : Nat := leField img 0x1f4 4

end LinuxLoader.Spec
