import Verif.Spec.Elf

/-!
# ELF files of every kind

The program headers of an ELF file as the ELF specification (gABI, chapters 4 and 5) defines them for
both classes (32 and 64 bit), both byte orders, any size of program header entries, and extended
numbering: if `e_phnum` is `PN_XNUM` (0xffff), the number of program headers is the field `sh_info` of
section header 0. Nothing here refers to the loader.
-/

namespace LinuxLoader.Spec

/-- Class of the file (`EI_CLASS`, byte 4). -/
inductive ElfClass where
  | c32
  | c64
deriving DecidableEq, Repr

/-- Byte order of the file (`EI_DATA`, byte 5). -/
inductive ElfOrder where
  | lsb
  | msb
deriving DecidableEq, Repr

/-- Size of the ELF header. -/
def ElfClass.headerSize : ElfClass → Nat
  | .c32 => 52
  | .c64 => 64

/-- `ELFCLASS32` and `ELFCLASS64`. -/
def ElfClass.code : ElfClass → UInt8
  | .c32 => 1
  | .c64 => 2

/-- `ELFDATA2LSB` and `ELFDATA2MSB`. -/
def ElfOrder.code : ElfOrder → UInt8
  | .lsb => 1
  | .msb => 2

/-- A file of class `c` in byte order `o`, with a complete header. -/
structure IsElf (c : ElfClass) (o : ElfOrder) (img : List UInt8) : Prop where
  complete : c.headerSize ≤ img.length
  magic : img.take 4 = elfMagic
  cls : img[4]? = some c.code
  order : img[5]? = some o.code

/-- The integer in the `n` bytes at offset `a`. -/
def ElfOrder.field (o : ElfOrder) (img : List UInt8) (a n : Nat) : Nat :=
  match o with
  | .lsb => leField img a n
  | .msb => leNat ((img.drop a).take n).reverse

section
variable (c : ElfClass) (o : ElfOrder) (img : List UInt8)

/-- `e_entry`. -/
def gEntry : Nat := match c with | .c32 => o.field img 24 4 | .c64 => o.field img 24 8
/-- `e_phoff`. -/
def gPhoff : Nat := match c with | .c32 => o.field img 28 4 | .c64 => o.field img 32 8
/-- `e_shoff`. -/
def gShoff : Nat := match c with | .c32 => o.field img 32 4 | .c64 => o.field img 40 8
/-- `e_phentsize`. -/
def gPhentsize : Nat := match c with | .c32 => o.field img 42 2 | .c64 => o.field img 54 2
/-- `e_phnum`. -/
def gPhnum : Nat := match c with | .c32 => o.field img 44 2 | .c64 => o.field img 56 2
/-- `sh_info` of section header 0. -/
def gShInfo : Nat :=
  match c with
  | .c32 => o.field img (gShoff c o img + 28) 4
  | .c64 => o.field img (gShoff c o img + 44) 4

/-- The number of program headers. -/
def gCount : Nat := if gPhnum c o img = 0xffff then gShInfo c o img else gPhnum c o img

/-- The `i`-th program header. -/
def gPhdr (i : Nat) : Phdr :=
  let b := gPhoff c o img + gPhentsize c o img * i
  match c with
  | .c32 =>
    { type := o.field img b 4
      offset := o.field img (b + 4) 4
      paddr := o.field img (b + 12) 4
      filesz := o.field img (b + 16) 4
      memsz := o.field img (b + 20) 4 }
  | .c64 =>
    { type := o.field img b 4
      offset := o.field img (b + 8) 8
      paddr := o.field img (b + 24) 8
      filesz := o.field img (b + 32) 8
      memsz := o.field img (b + 40) 8 }

/-- The program headers. -/
def gPhdrs : List Phdr := (List.range (gCount c o img)).map (gPhdr c o img)

end

/-- Addresses and contents of the loadable segments among the headers `l`, in order. -/
def gPieces (l : List Phdr) (img : List UInt8) (koff : Option GuestAddr) : List (Nat × List UInt8) :=
  (l.filter fun h => h.type = 1 && h.filesz != 0).map fun h =>
    (koffBase koff + h.paddr, (img.drop h.offset).take h.filesz)

/-- The ends in memory of the loadable segments. -/
def gEnds (l : List Phdr) (koff : Option GuestAddr) : List Nat :=
  (l.filter fun h => h.type = 1 && h.filesz != 0).map fun h => koffBase koff + h.paddr + h.memsz

end LinuxLoader.Spec
