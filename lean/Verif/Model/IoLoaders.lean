import Verif.Model.RawIo
import Verif.Model.BzImage
import Verif.Model.Pe

/-!
# The loaders over an arbitrary implementation of the I/O operations

The same code as in `Model/Elf.lean`, `Model/BzImage.lean` and `Model/Pe.lean`, with the operations as a
parameter. With the operations of `Model/Reader.lean` it is the same by `C70_same_code`.
-/

namespace LinuxLoader
variable {σ : Type}

/-- `notePvh` over `io`, src/loader/elf/mod.rs:345-353. -/
def G.notePvh (io : Io σ) (type namesz : Nat) : LM σ LoadError Bool :=
  if type = 18 ∧ namesz = 4 then do
    let name ← io.readExact 4 (.elf .readNoteHeader)
    pure (name == [0x58, 0x65, 0x6e, 0])
  else pure false

/-- `noteLoop` over `io`, src/loader/elf/mod.rs:339-378. -/
def G.noteLoop (io : Io σ) (ph : Phdr) : Nat → Nat → LM σ LoadError (Option NoteLoop)
  | 0, _ => LM.ofRes .panic
  | fuel + 1, readSize =>
    if readSize < ph.filesz then do
      let h ← io.readExact 12 (.elf .readNoteHeader)
      let namesz := leField h 0 4
      let descsz := leField h 4 4
      let found ← G.notePvh io (leField h 8 4) namesz
      if found then pure (some ⟨namesz, descsz, readSize⟩)
      else do
        let rs ← LM.ofRes (noteAdvance readSize namesz descsz)
        let p ← LM.ofRes (plainAdd ph.offset rs)
        io.seekStart p (.elf .seekNoteHeader)
        G.noteLoop io ph fuel rs
    else pure none

/-- `parseNote` over `io`, src/loader/elf/mod.rs:312-411. -/
def G.parseNote (io : Io σ) (ph : Phdr) : LM σ LoadError PvhCap := do
  io.seekStart ph.offset (.elf .seekNoteHeader)
  let r ← G.noteLoop io ph (ph.filesz + 1) 0
  match r with
  | none => pure .notPresent
  | some n => do
    let na ← LM.ofRes (alignUp n.namesz 4)
    io.seekCur ((na : Int) - 4) (.elf .seekNoteHeader)
    LM.require (decide (4 ≤ n.descsz)) (.elf .invalidPvhNote)
    let d ← io.readExact 4 (.elf .readNoteHeader)
    pure (.present (leNat d))

/-- `readPhdrs` over `io`, src/loader/elf/mod.rs:244-251. -/
def G.readPhdrs (io : Io σ) : Nat → LM σ LoadError (List Phdr)
  | 0 => pure []
  | n + 1 => do
    let b ← io.readExact 56 (.elf .readProgramHeader)
    let rest ← G.readPhdrs io n
    pure (Phdr.ofBytes b :: rest)

/-- `loadSegment` over `io`, src/loader/elf/mod.rs:272-293. -/
def G.loadSegment (io : Io σ) (koff : Option GuestAddr) (ph : Phdr) (kend : Nat) : LM σ LoadError Nat := do
  io.seekStart ph.offset (.elf .seekKernelStart)
  let a ← LM.okOr (segmentAddr koff ph) (.elf .invalidProgramHeaderAddress)
  io.readIntoMem a ph.filesz (.elf .readKernelImage)
  let e ← LM.okOr (checkedAdd a ph.memsz) .memoryOverflow
  pure (max kend e)

/-- `loadSegments` over `io`, src/loader/elf/mod.rs:254-294. -/
def G.loadSegments (io : Io σ) (koff : Option GuestAddr) : List Phdr → Nat → PvhCap → LM σ LoadError (Nat × PvhCap)
  | [], kend, cap => pure (kend, cap)
  | ph :: phs, kend, cap =>
    if ph.type ≠ PT_LOAD ∨ ph.filesz = 0 then
      if ph.type = PT_NOTE then
        match koff with
        | some _ => G.loadSegments io koff phs kend .ignored
        | none => do
          let c ← G.parseNote io ph
          G.loadSegments io koff phs kend c
      else G.loadSegments io koff phs kend cap
    else do
      let e ← G.loadSegment io koff ph kend
      G.loadSegments io koff phs e cap

/-- `checkEntry` over `io`, src/loader/elf/mod.rs:221-225. -/
def G.checkEntry (_io : Io σ) (highmem : Option GuestAddr) (entry : Nat) : LM σ LoadError Unit :=
  match highmem with
  | some h => LM.require (decide (h.toNat ≤ entry)) (.elf .invalidEntryAddress)
  | none => pure ()

/-- `elfKernelLoad` over `io`, src/loader/elf/mod.rs:227-238. -/
def G.elfKernelLoad (_io : Io σ) (koff : Option GuestAddr) (entry : Nat) : LM σ LoadError Nat :=
  match koff with
  | some k => LM.okOr (checkedAdd k.toNat entry) (.elf .overflow)
  | none => pure entry

/-- `elfLoad` over `io`, src/loader/elf/mod.rs:203-300. -/
def G.elfLoad (io : Io σ) (koff highmem : Option GuestAddr) : LM σ LoadError LoadResult := do
  io.seekStart 0 (.elf .seekElfStart)
  let eh ← io.readExact 64 (.elf .readElfHeader)
  LM.ofRes (validateHeader eh)
  G.checkEntry io highmem (ehEntry eh)
  let kload ← G.elfKernelLoad io koff (ehEntry eh)
  io.seekStart (ehPhoff eh) (.elf .seekProgramHeader)
  let phdrs ← G.readPhdrs io (ehPhnum eh)
  let r ← G.loadSegments io koff phdrs 0 .ignored
  pure ⟨kload, r.1, none, r.2⟩

/-- `bzCheckHighmem` over `io`, src/loader/bzimage/mod.rs:149-155. -/
def G.bzCheckHighmem (_io : Io σ) (highmem : Option GuestAddr) (code32 : Nat) : LM σ LoadError Unit :=
  match highmem with
  | some h => LM.require (decide (h.toNat ≤ code32)) .invalidKernelStartAddress
  | none => pure ()

/-- `bzRest` over `io`, src/loader/bzimage/mod.rs:125-183. -/
def G.bzRest (io : Io σ) (koff highmem : Option GuestAddr) (size : Nat) (h : List UInt8) :
    LM σ LoadError LoadResult := do
  LM.require (shMagic h == 0x53726448) (.bz .invalidBzImage)
  LM.require (!(decide (shVersion h < 0x200) || shLoadflags h &&& 1 == 0)) (.bz .invalidBzImage)
  let setup ← LM.okOr (bzSetupSize (shSetupSects h)) (.bz .overflow)
  let ksize ← LM.okOr (checkedSub size setup) (.bz .underflow)
  G.bzCheckHighmem io highmem (shCode32 h)
  let a := bzMemOffset koff (shCode32 h)
  io.seekStart setup (.bz .seekBzImageCompressedKernel)
  io.readIntoMem a ksize (.bz .readBzImageCompressedKernel)
  let e ← LM.okOr (checkedAdd a ksize) .memoryOverflow
  pure ⟨a, e, some (setCode32 h a), .ignored⟩

/-- `bzLoad` over `io`, src/loader/bzimage/mod.rs:105-184. -/
def G.bzLoad (io : Io σ) (koff highmem : Option GuestAddr) : LM σ LoadError LoadResult := do
  let size ← io.seekEnd (.bz .seekBzImageEnd)
  io.seekStart 0x1f1 (.bz .seekBzImageHeader)
  let h ← io.readVolatile 123 (.bz .readBzImageHeader)
  G.bzRest io koff highmem size h

/-- `peCheckAlign` over `io`, src/loader/pe/mod.rs:178-184. -/
def G.peCheckAlign (_io : Io σ) (koff : Option GuestAddr) : LM σ LoadError Unit :=
  match koff with
  | some k => LM.require (k.toNat % 0x200000 == 0) (.pe .invalidBaseAddrAlignment)
  | none => pure ()

/-- `peLoad` over `io`, src/loader/pe/mod.rs:136-207. -/
def G.peLoad (io : Io σ) (arch : PeArch) (koff _highmem : Option GuestAddr) : LM σ LoadError LoadResult := do
  let size ← io.seekEnd (.pe .seekImageEnd)
  io.seekStart 0 (.pe .seekImageHeader)
  let h ← io.readExact 64 (.pe .readImageHeader)
  LM.require (peMagic h == arch.magic) (.pe .invalidImageMagicNumber)
  G.peCheckAlign io koff
  let a ← LM.okOr (checkedAdd (peBase koff) (peTextOffset arch h)) (.pe .invalidImage)
  io.seekStart 0 (.pe .seekImageHeader)
  io.readIntoMem a size (.pe .readKernelImage)
  let e ← LM.okOr (checkedAdd a size) .memoryOverflow
  pure ⟨a, e, none, .ignored⟩

/-- `loadDtb` over `io`, src/loader/pe/mod.rs:218-236. -/
def G.loadDtb (io : Io σ) (a : GuestAddr) : LM σ LoadError Unit := do
  let size ← io.seekEnd (.pe .seekDtbEnd)
  LM.require (decide (size ≤ 0x200000)) (.pe .dtbTooBig)
  io.seekStart 0 (.pe .seekDtbStart)
  io.readIntoMem a.toNat size (.pe .readDtbImage)

end LinuxLoader
