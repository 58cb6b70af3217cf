import Verif.Spec.Elf
import Verif.Spec.Images
import Verif.Spec.ZeroPage

/-!
# Which bytes stand for a kernel

The other direction of `Spec/Elf.lean` and `Spec/Images.lean`: not "what do these bytes mean" but "which bytes stand for this
program". Written down from the ELF-64 object file format and the boot protocols of Linux; all fields the loader does not look at are
free.
-/

namespace LinuxLoader.Spec

/-- `v` is at offset `o` of `b`. -/
def At (b : List UInt8) (o : Nat) (v : List UInt8) : Prop := (b.drop o).take v.length = v

instance (b : List UInt8) (o : Nat) (v : List UInt8) : Decidable (At b o v) := by
  unfold At; infer_instance

/-- What a segment is for. -/
inductive Content
  /-- Code or data to be loaded. -/
  | load (bytes : List UInt8)
  /-- Notes. -/
  | notes (ns : List Note)
  /-- Anything else, with its segment type. -/
  | other (type : Nat) (bytes : List UInt8)
deriving DecidableEq

/-- Segment type. -/
def Content.type : Content → Nat
  | .load _ => 1
  | .notes _ => 4
  | .other t _ => t

/-- Bytes in the file. -/
def Content.bytes : Content → List UInt8
  | .load bs => bs
  | .notes ns => ns.flatMap Note.encode
  | .other _ bs => bs

/-- A segment. -/
structure Seg where
  content : Content
  flags : Nat
  vaddr : Nat
  paddr : Nat
  memsz : Nat
  align : Nat
deriving DecidableEq

/-- The program header of a segment whose bytes are at file offset `off`. -/
def Seg.header (g : Seg) (off : Nat) : List UInt8 :=
  leBytes 4 g.content.type ++ leBytes 4 g.flags ++ leBytes 8 off ++ leBytes 8 g.vaddr ++
    leBytes 8 g.paddr ++ leBytes 8 g.content.bytes.length ++ leBytes 8 g.memsz ++ leBytes 8 g.align

/-- An executable. `ident` are the class, and the bytes behind the data encoding; the last fields are
those of the section headers. -/
structure Exe where
  cls : UInt8
  ident : List UInt8
  etype : Nat
  machine : Nat
  version : Nat
  entry : Nat
  eflags : Nat
  ehsize : Nat
  shoff : Nat
  shentsize : Nat
  shnum : Nat
  shstrndx : Nat
  segs : List Seg
deriving DecidableEq

/-- The ELF header, with the program headers at `phoff`. -/
def Exe.header (x : Exe) (phoff : Nat) : List UInt8 :=
  elfMagic ++ [x.cls, 1] ++ x.ident ++ leBytes 2 x.etype ++ leBytes 2 x.machine ++ leBytes 4 x.version ++
    leBytes 8 x.entry ++ leBytes 8 phoff ++ leBytes 8 x.shoff ++ leBytes 4 x.eflags ++
    leBytes 2 x.ehsize ++ leBytes 2 56 ++ leBytes 2 x.segs.length ++ leBytes 2 x.shentsize ++
    leBytes 2 x.shnum ++ leBytes 2 x.shstrndx

/-- The values the loader looks at fit in their fields. -/
structure Exe.Fits (x : Exe) : Prop where
  ident : x.ident.length = 10
  entry : x.entry < U64
  count : x.segs.length < 0x10000
  segs : ∀ g ∈ x.segs, g.content.type < 0x100000000 ∧ g.paddr < U64 ∧ g.memsz < U64
  other : ∀ g ∈ x.segs, ∀ t bs, g.content = .other t bs → t ≠ 1 ∧ t ≠ 4
  notes : ∀ g ∈ x.segs, ∀ ns, g.content = .notes ns → ∀ n ∈ ns, n.Fits

/-- The file `img` is a layout of the executable: header, program headers behind it at `phoff`, and the
bytes of the `i`-th segment at `off i`. Everything else in the file is free, and parts may overlap. -/
structure LaidOut (x : Exe) (img : List UInt8) (phoff : Nat) (off : Nat → Nat) : Prop where
  header : At img 0 (x.header phoff)
  behind : 64 ≤ phoff
  phdrs : ∀ i g, x.segs[i]? = some g → At img (phoff + 56 * i) (g.header (off i))
  contents : ∀ i g, x.segs[i]? = some g → At img (off i) g.content.bytes
  /-- Offsets of empty segments too. -/
  offsets : phoff < U64 ∧ ∀ i g, x.segs[i]? = some g → off i < U64

/-- The simplest layout: header, program headers, contents one after the other. -/
def Exe.offset (x : Exe) (i : Nat) : Nat :=
  64 + 56 * x.segs.length + ((x.segs.take i).flatMap (·.content.bytes)).length

/-- The simplest file. -/
def Exe.link (x : Exe) : List UInt8 :=
  x.header 64 ++ x.segs.zipIdx.flatMap (fun p => p.1.header (x.offset p.2)) ++
    x.segs.flatMap (·.content.bytes)

/-! ## What loading it should do -/

/-- Address and bytes of a segment with something to load. -/
def Seg.piece (koff : Option GuestAddr) (g : Seg) : Option (Nat × List UInt8) :=
  match g.content with
  | .load bs => if bs = [] then none else some (koffBase koff + g.paddr, bs)
  | _ => none

/-- What is put into memory, in order. -/
def Exe.pieces (x : Exe) (koff : Option GuestAddr) : List (Nat × List UInt8) :=
  x.segs.filterMap (·.piece koff)

/-- The ends in memory of the segments with something to load. -/
def Exe.ends (x : Exe) (koff : Option GuestAddr) : List Nat :=
  x.segs.filterMap fun g => (g.piece koff).map fun p => p.1 + g.memsz

/-- The notes of a note segment. -/
def Seg.noteList (g : Seg) : Option (List Note) :=
  match g.content with
  | .notes ns => some ns
  | _ => none

/-- The notes of the note segments. -/
def Exe.noteLists (x : Exe) : List (List Note) := x.segs.filterMap (·.noteList)

/-- What the executable says about PVH: the last note segment counts, without `kernel_offset`. -/
def Exe.pvh (x : Exe) (koff : Option GuestAddr) : PvhCap :=
  match koff, x.noteLists.getLast? with
  | none, some ns => match notesOutcome ns with | .ok c => c | .error _ => .ignored
  | _, _ => .ignored

/-- The executable can be loaded into `m`: the entry point is at or above `highmem`; with `kernel_offset`
nothing overflows; the target ranges are mapped; no PVH note has a descriptor of less than 4 bytes (not
looked at with `kernel_offset`). -/
structure Exe.Loads (x : Exe) (koff highmem : Option GuestAddr) (m : Mem) : Prop where
  entry : ∀ h, highmem = some h → h.toNat ≤ x.entry
  start : koffBase koff + x.entry < U64
  mapped : ∀ g ∈ x.segs, ∀ a bs, g.piece koff = some (a, bs) →
    Mapped m a bs.length ∧ a < U64 ∧ a + g.memsz < U64
  notes : koff = none → ∀ ns ∈ x.noteLists, ∃ c, notesOutcome ns = .ok c

/-! ## bzImage -/

/-- The file `img` is a bzImage with the header values `w` (by the names of
Documentation/arch/x86/boot.rst) and the protected-mode kernel `kernel` behind the boot sector and the
setup sectors. The contents of these sectors are free but for the setup header. -/
structure BzLaidOut (w : String → Nat) (kernel : List UInt8) (img : List UInt8) : Prop where
  fields : ∀ p ∈ setupHeaderDoc, w p.1 < 256 ^ p.2.2 ∧ At img p.2.1 (leBytes p.2.2 (w p.1))
  magic : w "header" = 0x53726448
  version : 0x200 ≤ w "version"
  loadHigh : w "loadflags" % 2 = 1
  sectors : ((if w "setup_sects" = 0 then 4 else w "setup_sects") + 1) * 512 ≤ img.length
  kernel : img.drop (((if w "setup_sects" = 0 then 4 else w "setup_sects") + 1) * 512) = kernel

/-- The address of a bzImage: `kernel_offset` or `code32_start`. -/
def bzTarget (w : String → Nat) (koff : Option GuestAddr) : Nat :=
  match koff with
  | some k => k.toNat
  | none => w "code32_start"

/-! ## PE images -/

/-- Documentation/arch/arm64/booting.rst: fields, offsets and sizes. -/
def arm64Doc : List (String × Nat × Nat) :=
  [("code0", 0, 4), ("code1", 4, 4), ("text_offset", 8, 8), ("image_size", 16, 8), ("flags", 24, 8),
   ("res2", 32, 8), ("res3", 40, 8), ("res4", 48, 8), ("magic", 56, 4), ("res5", 60, 4)]

/-- Documentation/arch/riscv/boot-image-header.rst: fields, offsets and sizes. -/
def riscv64Doc : List (String × Nat × Nat) :=
  [("code0", 0, 4), ("code1", 4, 4), ("text_offset", 8, 8), ("image_size", 16, 8), ("flags", 24, 8),
   ("version", 32, 4), ("res1", 36, 4), ("res2", 40, 8), ("magic", 48, 8), ("magic2", 56, 4),
   ("res3", 60, 4)]

/-- The documented header fields of an architecture. -/
def peDoc : PeArch → List (String × Nat × Nat)
  | .arm64 => arm64Doc
  | .riscv64 => riscv64Doc

/-- The file `img` is an `Image` with the header values `w`. -/
structure PeLaidOut (arch : PeArch) (w : String → Nat) (img : List UInt8) : Prop where
  fields : ∀ p ∈ peDoc arch, w p.1 < 256 ^ p.2.2 ∧ At img p.2.1 (leBytes p.2.2 (w p.1))
  magic : match arch with
    | .arm64 => w "magic" = 0x644d5241
    | .riscv64 => w "magic2" = 0x05435352

/-- The address of an `Image`: the documented text offset (0x80000 for old arm64 kernels, which have no
image size), from `kernel_offset`. -/
def peTarget (arch : PeArch) (w : String → Nat) (koff : Option GuestAddr) : Nat :=
  koffBase koff + (if arch = .arm64 ∧ w "image_size" = 0 then 0x80000 else w "text_offset")

end LinuxLoader.Spec
