import Verif.Model.Reader

/-!
# Model of src/loader/elf/mod.rs

Integer fields read from the image are natural numbers below the size of their type.
-/

namespace LinuxLoader

/-- `elf::Error`, src/loader/elf/mod.rs:42-77. -/
inductive ElfError where
  | align
  | invalidElfMagicNumber
  | invalidEntryAddress
  | invalidProgramHeaderSize
  | invalidProgramHeaderOffset
  | invalidProgramHeaderAddress
  | overflow
  | readElfHeader
  | readKernelImage
  | readProgramHeader
  | seekKernelStart
  | seekElfStart
  | seekProgramHeader
  | bigEndianElfOnLittle
  | seekNoteHeader
  | readNoteHeader
  | invalidPvhNote
deriving DecidableEq, Repr

/-- `bzimage::Error`, src/loader/bzimage/mod.rs:27-44. -/
inductive BzError where
  | invalidBzImage
  | overflow
  | readBzImageHeader
  | readBzImageCompressedKernel
  | seekBzImageEnd
  | seekBzImageHeader
  | seekBzImageCompressedKernel
  | underflow
deriving DecidableEq, Repr

/-- `pe::Error`, src/loader/pe/mod.rs:27-51. -/
inductive PeError where
  | seekImageEnd
  | seekImageHeader
  | seekDtbStart
  | seekDtbEnd
  | dtbTooBig
  | readKernelImage
  | readImageHeader
  | readDtbImage
  | invalidImage
  | invalidImageMagicNumber
  | invalidBaseAddrAlignment
deriving DecidableEq, Repr

/-- The errors of `loader::Error` (src/loader/mod.rs:49-74) that kernel loaders return. -/
inductive LoadError where
  | elf (e : ElfError)
  | bz (e : BzError)
  | pe (e : PeError)
  | invalidKernelStartAddress
  | memoryOverflow
deriving DecidableEq, Repr

/-- `PvhBootCapability`, src/loader/elf/mod.rs:109-120. -/
inductive PvhCap where
  | present (entry : Nat)
  | notPresent
  | ignored
deriving DecidableEq, Repr

/-- `KernelLoaderResult`, src/loader/mod.rs:147-162. The setup header is given by its bytes. -/
structure LoadResult where
  kernelLoad : Nat
  kernelEnd : Nat
  setupHeader : Option (List UInt8)
  pvh : PvhCap
deriving DecidableEq, Repr

/-- `Elf64_Ehdr` fields used, src/loader_gen/x86_64/elf.rs:645-662. -/
def ehEntry (b : List UInt8) : Nat := leField b 24 8
/-- `e_phoff`, src/loader_gen/x86_64/elf.rs:645-662. -/
def ehPhoff (b : List UInt8) : Nat := leField b 32 8
/-- `e_phentsize`, src/loader_gen/x86_64/elf.rs:645-662. -/
def ehPhentsize (b : List UInt8) : Nat := leField b 54 2
/-- `e_phnum`, src/loader_gen/x86_64/elf.rs:645-662. -/
def ehPhnum (b : List UInt8) : Nat := leField b 56 2

/-- `Elf64_Phdr` fields used, src/loader_gen/x86_64/elf.rs:664-675. -/
structure Phdr where
  type : Nat
  offset : Nat
  paddr : Nat
  filesz : Nat
  memsz : Nat
deriving DecidableEq, Repr

/-- `Elf64_Phdr` from its 56 bytes (`ByteValued::as_mut_slice`), src/loader_gen/x86_64/elf.rs:664-675. -/
def Phdr.ofBytes (b : List UInt8) : Phdr :=
  ⟨leField b 0 4, leField b 8 8, leField b 24 8, leField b 32 8, leField b 40 8⟩

/-- `elf::PT_LOAD`, src/loader_gen/x86_64/elf.rs:86. -/
def PT_LOAD : Nat := 1
/-- `elf::PT_NOTE`, src/loader_gen/x86_64/elf.rs:89. -/
def PT_NOTE : Nat := 4

/-- `Elf::validate_header`, src/loader/elf/mod.rs:142-161. -/
def validateHeader (b : List UInt8) : Res LoadError Unit :=
  if b[0]? ≠ some 0x7f ∨ b[1]? ≠ some 0x45 ∨ b[2]? ≠ some 0x4c ∨ b[3]? ≠ some 0x46 then
    .err (.elf .invalidElfMagicNumber)
  else if b[5]? ≠ some 1 then .err (.elf .bigEndianElfOnLittle)
  else if ehPhentsize b ≠ 56 then .err (.elf .invalidProgramHeaderSize)
  else if ehPhoff b < 64 then .err (.elf .invalidProgramHeaderOffset)
  else .ok ()

/-- `u64::is_power_of_two` (std). Call: src/loader/elf/mod.rs:419. -/
def isPow2 (n : Nat) : Bool := n != 0 && n &&& (n - 1) == 0

/-- `align_up`, src/loader/elf/mod.rs:418-430. The addition is unchecked. -/
def alignUp (addr align : Nat) : Res LoadError Nat :=
  if ¬ isPow2 align then .err (.elf .align)
  else
    let mask := align - 1
    if addr &&& mask = 0 then .ok addr
    else plainAdd (addr ||| mask) 1

/-- State of the loop of `parse_elf_note` when it ends: the last note header read, and `read_size`.
src/loader/elf/mod.rs:335-383. -/
structure NoteLoop where
  namesz : Nat
  descsz : Nat
  readSize : Nat

/-- Type and name of the note just read match the PVH ABI, src/loader/elf/mod.rs:345-353: reads the
name if type and name size fit. -/
def notePvh (type namesz : Nat) : LM LS LoadError Bool :=
  if type = 18 ∧ namesz = 4 then do
    let name ← readExact 4 (.elf .readNoteHeader)
    pure (name == [0x58, 0x65, 0x6e, 0])
  else pure false

/-- `read_size` after the current note, src/loader/elf/mod.rs:356-371. -/
def noteAdvance (readSize namesz descsz : Nat) : Res LoadError Nat :=
  (alignUp namesz 4).bind fun na =>
  (alignUp descsz 4).bind fun da =>
  if na > 0xffffffff ∨ da > 0xffffffff then .err (.elf .overflow)
  else okOr (do
    let r ← checkedAdd readSize 12
    let r ← checkedAdd r na
    checkedAdd r da) (.elf .overflow)

/-- The `while` loop of `parse_elf_note`, src/loader/elf/mod.rs:339-378. `none` if the loop condition
became false, the current note header if it was left by `break`. `fuel` bounds the number of
iterations; running out of it counts as a panic (it never happens: `C40`). -/
def noteLoop (ph : Phdr) : Nat → Nat → LM LS LoadError (Option NoteLoop)
  | 0, _ => LM.ofRes .panic
  | fuel + 1, readSize =>
    if readSize < ph.filesz then do
      let h ← readExact 12 (.elf .readNoteHeader)
      let namesz := leField h 0 4
      let descsz := leField h 4 4
      let found ← notePvh (leField h 8 4) namesz
      if found then pure (some ⟨namesz, descsz, readSize⟩)
      else do
        let rs ← LM.ofRes (noteAdvance readSize namesz descsz)
        let p ← LM.ofRes (plainAdd ph.offset rs)
        seekStart p (.elf .seekNoteHeader)
        noteLoop ph fuel rs
    else pure none

/-- `parse_elf_note`, src/loader/elf/mod.rs:312-411. The test at line 380 is the loop condition again
(`read_size` is unchanged by `break`). -/
def parseNote (ph : Phdr) : LM LS LoadError PvhCap := do
  seekStart ph.offset (.elf .seekNoteHeader)
  let r ← noteLoop ph (ph.filesz + 1) 0
  match r with
  | none => pure .notPresent
  | some n => do
    let na ← LM.ofRes (alignUp n.namesz 4)
    seekCur ((na : Int) - 4) (.elf .seekNoteHeader)
    LM.require (decide (4 ≤ n.descsz)) (.elf .invalidPvhNote)
    let d ← readExact 4 (.elf .readNoteHeader)
    pure (.present (leNat d))

/-- Reads `n` program headers, src/loader/elf/mod.rs:244-251. -/
def readPhdrs : Nat → LM LS LoadError (List Phdr)
  | 0 => pure []
  | n + 1 => do
    let b ← readExact 56 (.elf .readProgramHeader)
    let rest ← readPhdrs n
    pure (Phdr.ofBytes b :: rest)

/-- Load address of a segment, src/loader/elf/mod.rs:277-284. -/
def segmentAddr (koff : Option GuestAddr) (ph : Phdr) : Option Nat :=
  match koff with
  | some k => checkedAdd k.toNat ph.paddr
  | none => some ph.paddr

/-- Loading one segment, src/loader/elf/mod.rs:272-293: the new `kernel_end`. -/
def loadSegment (koff : Option GuestAddr) (ph : Phdr) (kend : Nat) : LM LS LoadError Nat := do
  seekStart ph.offset (.elf .seekKernelStart)
  let a ← LM.okOr (segmentAddr koff ph) (.elf .invalidProgramHeaderAddress)
  readIntoMem a ph.filesz (.elf .readKernelImage)
  let e ← LM.okOr (checkedAdd a ph.memsz) .memoryOverflow
  pure (max kend e)

/-- The loop over the program headers, src/loader/elf/mod.rs:254-294: `kernel_end` and PVH
capability. -/
def loadSegments (koff : Option GuestAddr) : List Phdr → Nat → PvhCap → LM LS LoadError (Nat × PvhCap)
  | [], kend, cap => pure (kend, cap)
  | ph :: phs, kend, cap =>
    if ph.type ≠ PT_LOAD ∨ ph.filesz = 0 then
      if ph.type = PT_NOTE then
        match koff with
        | some _ => loadSegments koff phs kend .ignored
        | none => do
          let c ← parseNote ph
          loadSegments koff phs kend c
      else loadSegments koff phs kend cap
    else do
      let e ← loadSegment koff ph kend
      loadSegments koff phs e cap

/-- The high memory check, src/loader/elf/mod.rs:221-225: on the entry point of the image, without
`kernel_offset`. -/
def checkEntry (highmem : Option GuestAddr) (entry : Nat) : LM LS LoadError Unit :=
  match highmem with
  | some h => LM.require (decide (h.toNat ≤ entry)) (.elf .invalidEntryAddress)
  | none => pure ()

/-- `kernel_load`, src/loader/elf/mod.rs:227-238. -/
def elfKernelLoad (koff : Option GuestAddr) (entry : Nat) : LM LS LoadError Nat :=
  match koff with
  | some k => LM.okOr (checkedAdd k.toNat entry) (.elf .overflow)
  | none => pure entry

/-- `Elf::load`, src/loader/elf/mod.rs:203-300. -/
def elfLoad (koff highmem : Option GuestAddr) : LM LS LoadError LoadResult := do
  seekStart 0 (.elf .seekElfStart)
  let eh ← readExact 64 (.elf .readElfHeader)
  LM.ofRes (validateHeader eh)
  checkEntry highmem (ehEntry eh)
  let kload ← elfKernelLoad koff (ehEntry eh)
  seekStart (ehPhoff eh) (.elf .seekProgramHeader)
  let phdrs ← readPhdrs (ehPhnum eh)
  let r ← loadSegments koff phdrs 0 .ignored
  pure ⟨kload, r.1, none, r.2⟩

end LinuxLoader
