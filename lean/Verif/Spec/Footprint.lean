import Verif.Spec.Images

/-!
# Specification vocabulary: the bytes of a kernel image that are looked at

Which bytes of an ELF image or a bzImage can matter, read off the image itself; two images that agree on
these bytes are alike for the loader.
-/

namespace LinuxLoader.Spec

/-- The same reader and guest memory, with another image. -/
def _root_.LinuxLoader.LS.withImage (s : LS) (img : List UInt8) : LS :=
  { s with rd := { s.rd with data := img } }

/-- The bytes of the ELF header that matter: the magic number, the byte order (`EI_DATA`), `e_entry` and
`e_phoff`, `e_phentsize` and `e_phnum`. -/
def ElfHeaderByte (x : Nat) : Prop := x < 4 ∨ x = 5 ∨ InRange 24 16 x ∨ InRange 54 4 x

/-- The bytes of the program header at `o` that matter: `p_type`, `p_offset`, and `p_paddr`, `p_filesz`
and `p_memsz`. -/
def PhdrByte (o x : Nat) : Prop := InRange o 4 x ∨ InRange (o + 8) 8 x ∨ InRange (o + 24) 24 x

/-- The value of the byte at `x` can matter: a field above, the contents of a loadable segment, or, if
no `kernel_offset` is given, a note segment — with 19 bytes behind it, as a note that starts in the
last byte of the segment is read to its end. -/
def ElfUses (img : List UInt8) (koff : Option GuestAddr) (x : Nat) : Prop :=
  ElfHeaderByte x ∨
  (∃ i, i < elfPhnum img ∧ PhdrByte (elfPhoff img + 56 * i) x) ∨
  (∃ h ∈ elfPhdrs img, h.Loadable ∧ InRange h.offset h.filesz x) ∨
  (koff = none ∧ ∃ h ∈ elfPhdrs img, h.IsNote ∧ h.filesz ≠ 0 ∧ InRange h.offset (h.filesz + 19) x)

/-- It matters whether the file has a byte at `x`: the ELF header and the program headers must be
complete. -/
def ElfNeeds (img : List UInt8) (x : Nat) : Prop :=
  x < 64 ∨ ∃ i, i < elfPhnum img ∧ InRange (elfPhoff img + 56 * i) 56 x

/-- `img'` agrees with `img` on the bytes that can matter. -/
structure ElfAlike (img img' : List UInt8) (koff : Option GuestAddr) : Prop where
  uses : ∀ x, ElfUses img koff x → img'[x]? = img[x]?
  needs : ∀ x, ElfNeeds img x → (x < img'.length ↔ x < img.length)

/-- The bytes of the ELF header that do not matter: the class (32 or 64 bit), `EI_VERSION`, the OS ABI
and the padding of `e_ident`, `e_type`, `e_machine`, `e_version`; `e_shoff`, `e_flags`, `e_ehsize`;
`e_shentsize`, `e_shnum`, `e_shstrndx`. -/
def ElfUnusedHeader (x : Nat) : Prop := x = 4 ∨ InRange 6 18 x ∨ InRange 40 14 x ∨ InRange 58 6 x

/-- `e_ident[EI_CLASS]`: 1 for 32-bit objects, 2 for 64-bit objects. -/
def elfClass (img : List UInt8) : Nat := leField img 4 1
/-- `e_type`: 1 relocatable, 2 executable, 3 shared object, 4 core. -/
def elfType (img : List UInt8) : Nat := leField img 16 2
/-- `e_machine`: 62 is x86-64. -/
def elfMachine (img : List UInt8) : Nat := leField img 18 2

/-- `img'` has the size of the bzImage `img`, the same setup header, and the same protected-mode kernel:
only the boot sector code and the setup code may differ. -/
structure BzAlike (img img' : List UInt8) : Prop where
  size : img'.length = img.length
  header : bzHeader img' = bzHeader img
  kernel : bzKernel img' = bzKernel img

end LinuxLoader.Spec
