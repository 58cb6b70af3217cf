import Verif.Spec.Elf

/-!
# The memory image of a program (C100)

ELF specification, "Program Header", `PT_LOAD`: the bytes from the file are mapped to the beginning of the memory
segment. If the segment's memory size is larger than the file size, the extra bytes are defined to hold the value
0 and to follow the segment's initialized area. The file size may not be larger than the memory size.
-/

namespace LinuxLoader.Spec
open LinuxLoader

/-- All segments of type `PT_LOAD`, with and without contents in the file. -/
def elfLoads (img : List UInt8) : List Phdr := (elfPhdrs img).filter fun h => h.type = 1

/-- No segment has a file size larger than its memory size, and no two segments share memory. -/
def WellFormedSegments (img : List UInt8) : Prop :=
  (∀ h ∈ elfLoads img, h.filesz ≤ h.memsz) ∧
  (elfLoads img).Pairwise fun g h => ∀ x, ¬ (InRange g.paddr g.memsz x ∧ InRange h.paddr h.memsz x)

/-- Byte `k` of a segment in memory. -/
def segByte (img : List UInt8) (h : Phdr) (k : Nat) : UInt8 :=
  if k < h.filesz then ((h.contents img)[k]?).getD 0 else 0

/-- Memory `f` holds the segments of the program, moved by `base`. -/
def ProgramInPlace (f : Nat → UInt8) (base : Nat) (img : List UInt8) : Prop :=
  ∀ h ∈ elfLoads img, ∀ k, k < h.memsz → f (base + h.paddr + k) = segByte img h k

/-- Memory `f` is 0 where the program has uninitialised data. -/
def UninitialisedZero (f : Nat → UInt8) (base : Nat) (img : List UInt8) : Prop :=
  ∀ h ∈ elfLoads img, ∀ k, h.filesz ≤ k → k < h.memsz → f (base + h.paddr + k) = 0

end LinuxLoader.Spec
