import Verif.Model.Elf
import Verif.Spec.Pvh

/-!
# Specification vocabulary for ELF kernel images

What an ELF64 image means, read off its bytes: header fields, program headers, loadable segments, and
the notes of a note segment. Nothing here refers to how the loader works. `leField img o n` is the
little-endian integer of the `n` bytes at file offset `o`.
-/

namespace LinuxLoader.Spec

/-- The reader works without I/O errors and short reads. -/
def FaultFree (s : LS) : Prop := ∀ i, s.rd.sched i = .ok

/-- The magic number `\x7fELF`. -/
def elfMagic : List UInt8 := [0x7f, 0x45, 0x4c, 0x46]

/-- Entry point. -/
def elfEntry (img : List UInt8) : Nat := leField img 24 8
/-- File offset of the program headers. -/
def elfPhoff (img : List UInt8) : Nat := leField img 32 8
/-- Size of one program header. -/
def elfPhentsize (img : List UInt8) : Nat := leField img 54 2
/-- Number of program headers. -/
def elfPhnum (img : List UInt8) : Nat := leField img 56 2

/-- A complete little-endian ELF64 header with program headers of the right size behind it. -/
structure ElfHeaderOk (img : List UInt8) : Prop where
  complete : 64 ≤ img.length
  magic : img.take 4 = elfMagic
  littleEndian : img[5]? = some 1
  phentsize : elfPhentsize img = 56
  phoff : 64 ≤ elfPhoff img

/-- Every program header is completely inside the file. -/
def PhdrsComplete (img : List UInt8) : Prop :=
  ∀ i, i < elfPhnum img → elfPhoff img + 56 * i + 56 ≤ img.length

/-- The `i`-th program header. -/
def phdrAt (img : List UInt8) (i : Nat) : Phdr :=
  let o := elfPhoff img + 56 * i
  { type := leField img o 4
    offset := leField img (o + 8) 8
    paddr := leField img (o + 24) 8
    filesz := leField img (o + 32) 8
    memsz := leField img (o + 40) 8 }

/-- The program headers. -/
def elfPhdrs (img : List UInt8) : List Phdr := (List.range (elfPhnum img)).map (phdrAt img)

/-- A loadable segment with contents (type `PT_LOAD` = 1). -/
def _root_.LinuxLoader.Phdr.Loadable (h : Phdr) : Prop := h.type = 1 ∧ h.filesz ≠ 0

instance (h : Phdr) : Decidable h.Loadable := by unfold LinuxLoader.Phdr.Loadable; infer_instance

/-- A note segment (type `PT_NOTE` = 4). -/
def _root_.LinuxLoader.Phdr.IsNote (h : Phdr) : Prop := h.type = 4

instance (h : Phdr) : Decidable h.IsNote := by unfold LinuxLoader.Phdr.IsNote; infer_instance

/-- What `kernel_offset` adds to addresses. -/
def koffBase (koff : Option GuestAddr) : Nat :=
  match koff with
  | some k => k.toNat
  | none => 0

/-- The contents of a segment in the file. -/
def _root_.LinuxLoader.Phdr.contents (img : List UInt8) (h : Phdr) : List UInt8 := (img.drop h.offset).take h.filesz

/-- The loadable segments. -/
def elfLoadable (img : List UInt8) : List Phdr := (elfPhdrs img).filter fun h => decide h.Loadable

/-- Addresses and contents of the loadable segments, in program header order. -/
def elfPieces (img : List UInt8) (koff : Option GuestAddr) : List (Nat × List UInt8) :=
  (elfLoadable img).map fun h => (koffBase koff + h.paddr, h.contents img)

/-- No transfer into guest memory puts bytes at the wrong address when it fails: true of readers that
deliver as much as they can, and of transfers into a single region. -/
def NoScatter (s : LS) : Prop := ∀ i w, s.rd.sched i ≠ .scatter w

/-- `x` is in the target range of a loadable segment. -/
def InSegments (img : List UInt8) (koff : Option GuestAddr) (x : Nat) : Prop :=
  ∃ h ∈ elfLoadable img, InRange (koffBase koff + h.paddr) h.filesz x

/-- The ends in memory of the loadable segments. -/
def elfEnds (img : List UInt8) (koff : Option GuestAddr) : List Nat :=
  (elfLoadable img).map fun h => koffBase koff + h.paddr + h.memsz

/-- `v` is the maximum of the list, 0 if the list is empty. -/
def IsMaxOf (v : Nat) (l : List Nat) : Prop := (∀ x ∈ l, x ≤ v) ∧ (v ∈ l ∨ (l = [] ∧ v = 0))

/-! ## Notes -/

/-- An ELF note. -/
structure Note where
  type : Nat
  name : List UInt8
  desc : List UInt8
deriving DecidableEq, Repr

/-- Padded with zeros to a multiple of 4. -/
def pad4 (b : List UInt8) : List UInt8 := b ++ List.replicate ((4 - b.length % 4) % 4) 0

/-- A note in a note segment: the sizes of name and descriptor, the type, then name and descriptor,
each padded to a multiple of 4 bytes. -/
def Note.encode (n : Note) : List UInt8 :=
  leBytes 4 n.name.length ++ leBytes 4 n.desc.length ++ leBytes 4 n.type ++ pad4 n.name ++ pad4 n.desc

/-- The sizes and the type fit in their 32-bit fields, with the padding. -/
def Note.Fits (n : Note) : Prop :=
  n.name.length ≤ 0xfffffffc ∧ n.desc.length ≤ 0xfffffffc ∧ n.type < 0x100000000

/-- The note that carries a PVH entry point: type 18 (`XEN_ELFNOTE_PHYS32_ENTRY`), owner `Xen`. -/
def Note.IsPvh (n : Note) : Prop := n.type = 18 ∧ n.name = [0x58, 0x65, 0x6e, 0]

instance (n : Note) : Decidable n.IsPvh := by unfold Note.IsPvh; infer_instance

/-- What a list of notes says about PVH: the first PVH note counts, its descriptor starts with the
32-bit entry point. -/
def notesOutcome : List Note → Except ElfError PvhCap
  | [] => .ok .notPresent
  | n :: ns =>
    if n.IsPvh then
      if n.desc.length < 4 then .error .invalidPvhNote else .ok (.present (leNat (n.desc.take 4)))
    else notesOutcome ns

/-- Rounded up to a multiple of 4. -/
def up4 (n : Nat) : Nat := (n + 3) / 4 * 4

/-- The note header at file offset `o` and the name behind it are those of a PVH note. -/
def PvhAt (img : List UInt8) (o : Nat) : Prop :=
  leField img (o + 8) 4 = 18 ∧ leField img o 4 = 4 ∧
    (img.drop (o + 12)).take 4 = [0x58, 0x65, 0x6e, 0]

instance (img : List UInt8) (o : Nat) : Decidable (PvhAt img o) := by unfold PvhAt; infer_instance

/-- What the note segment at `[off, off + size)` of *any* byte string says about PVH, reading from
byte `r` of the segment. A note header, the name of a candidate and the entry point must be inside the
file; sizes that do not fit in 32 bits when rounded up are rejected. -/
def segmentOutcome (img : List UInt8) (off size r : Nat) : Except ElfError PvhCap :=
  if h : size ≤ r then .ok .notPresent
  else
    let o := off + r
    let namesz := leField img o 4
    let descsz := leField img (o + 4) 4
    if img.length < o + 12 then .error .readNoteHeader
    else if leField img (o + 8) 4 = 18 ∧ namesz = 4 ∧ img.length < o + 16 then .error .readNoteHeader
    else if PvhAt img o then
      if descsz < 4 then .error .invalidPvhNote
      else if img.length < o + 20 then .error .readNoteHeader
      else .ok (.present (leField img (o + 16) 4))
    else if 0xfffffffc < namesz ∨ 0xfffffffc < descsz then .error .overflow
    else segmentOutcome img off size (r + 12 + up4 namesz + up4 descsz)
termination_by size - r
decreasing_by omega

/-- The last note segment, if any. -/
def lastNote (img : List UInt8) : Option Phdr :=
  ((elfPhdrs img).filter fun h => decide h.IsNote).getLast?

/-! ## What can prevent an image from being loaded -/

/-- Obstacles in one program header, in the order in which they are reported. -/
def phdrObstacles (img : List UInt8) (koff : Option GuestAddr) (m : Mem) (h : Phdr) :
    List (LoadError × Prop) :=
  [(.elf .readNoteHeader, h.IsNote ∧ koff = none ∧
      segmentOutcome img h.offset h.filesz 0 = .error .readNoteHeader),
   (.elf .overflow, h.IsNote ∧ koff = none ∧
      segmentOutcome img h.offset h.filesz 0 = .error .overflow),
   (.elf .invalidPvhNote, h.IsNote ∧ koff = none ∧
      segmentOutcome img h.offset h.filesz 0 = .error .invalidPvhNote),
   (.elf .invalidProgramHeaderAddress, h.Loadable ∧ U64 ≤ koffBase koff + h.paddr),
   (.elf .readKernelImage, h.Loadable ∧ (img.length < h.offset + h.filesz ∨
      ¬ Mapped m (koffBase koff + h.paddr) h.filesz)),
   (.memoryOverflow, h.Loadable ∧ U64 ≤ koffBase koff + h.paddr + h.memsz)]

/-- Obstacles in the headers, in the order in which they are reported. -/
def elfHeaderObstacles (img : List UInt8) (koff highmem : Option GuestAddr) :
    List (LoadError × Prop) :=
  [(.elf .readElfHeader, img.length < 64),
   (.elf .invalidElfMagicNumber, img.take 4 ≠ elfMagic),
   (.elf .bigEndianElfOnLittle, img[5]? ≠ some 1),
   (.elf .invalidProgramHeaderSize, elfPhentsize img ≠ 56),
   (.elf .invalidProgramHeaderOffset, elfPhoff img < 64),
   (.elf .invalidEntryAddress, ∃ h, highmem = some h ∧ elfEntry img < h.toNat),
   (.elf .overflow, U64 ≤ koffBase koff + elfEntry img),
   (.elf .readProgramHeader, ¬ PhdrsComplete img)]

/-- Everything that can prevent an image from being loaded into memory `m`, in the order in which it
is reported. -/
def elfObstacles (img : List UInt8) (koff highmem : Option GuestAddr) (m : Mem) :
    List (LoadError × Prop) :=
  elfHeaderObstacles img koff highmem ++ (elfPhdrs img).flatMap (phdrObstacles img koff m)

end LinuxLoader.Spec
