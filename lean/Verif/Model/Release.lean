import Verif.Model.Elf
import Verif.Model.BootParams

/-!
# Model of a build without overflow checks

In a Cargo `release` profile the unchecked `+` of the crate wraps instead of panicking. The functions
below are those of the other model files that use such an addition, directly or through a callee,
with the addition wrapping; everything else (`checked_add`, `Vec` operations, ...) is the same in both
builds.
-/

namespace LinuxLoader.Release
open LinuxLoader

/-- `a + b` on `usize`/`u64` in a build without overflow checks, e.g. src/loader/elf/mod.rs:376. -/
def wrapAdd (a b : Nat) : Nat := (a + b) % U64

/-- `align_up`, src/loader/elf/mod.rs:418-430. -/
def alignUp (addr align : Nat) : Res LoadError Nat :=
  if ¬ isPow2 align then .err (.elf .align)
  else
    let mask := align - 1
    if addr &&& mask = 0 then .ok addr
    else .ok (wrapAdd (addr ||| mask) 1)

/-- `read_size` after the current note, src/loader/elf/mod.rs:356-371. -/
def noteAdvance (readSize namesz descsz : Nat) : Res LoadError Nat :=
  (alignUp namesz 4).bind fun na =>
  (alignUp descsz 4).bind fun da =>
  if na > 0xffffffff ∨ da > 0xffffffff then .err (.elf .overflow)
  else okOr (do
    let r ← checkedAdd readSize 12
    let r ← checkedAdd r na
    checkedAdd r da) (.elf .overflow)

/-- The `while` loop of `parse_elf_note`, src/loader/elf/mod.rs:339-378. -/
def noteLoop (ph : Phdr) : Nat → Nat → LM LS LoadError (Option NoteLoop)
  | 0, _ => LM.ofRes .panic
  | fuel + 1, readSize =>
    if readSize < ph.filesz then do
      let h ← readExact 12 (.elf .readNoteHeader)
      let namesz := leField h 0 4
      let descsz := leField h 4 4
      let found ← notePvh (leField h 8 4) namesz
      if found then pure (some ⟨namesz, descsz, readSize⟩)
      else do
        let rs ← LM.ofRes (noteAdvance readSize namesz descsz)
        let p := wrapAdd ph.offset rs
        seekStart p (.elf .seekNoteHeader)
        noteLoop ph fuel rs
    else pure none

/-- `parse_elf_note`, src/loader/elf/mod.rs:312-411. -/
def parseNote (ph : Phdr) : LM LS LoadError PvhCap := do
  seekStart ph.offset (.elf .seekNoteHeader)
  let r ← noteLoop ph (ph.filesz + 1) 0
  match r with
  | none => pure .notPresent
  | some n => do
    let na ← LM.ofRes (alignUp n.namesz 4)
    seekCur ((na : Int) - 4) (.elf .seekNoteHeader)
    LM.require (decide (4 ≤ n.descsz)) (.elf .invalidPvhNote)
    let d ← readExact 4 (.elf .readNoteHeader)
    pure (.present (leNat d))

/-- The loop over the program headers, src/loader/elf/mod.rs:254-294. -/
def loadSegments (koff : Option GuestAddr) : List Phdr → Nat → PvhCap → LM LS LoadError (Nat × PvhCap)
  | [], kend, cap => pure (kend, cap)
  | ph :: phs, kend, cap =>
    if ph.type ≠ PT_LOAD ∨ ph.filesz = 0 then
      if ph.type = PT_NOTE then
        match koff with
        | some _ => loadSegments koff phs kend .ignored
        | none => do
          let c ← parseNote ph
          loadSegments koff phs kend c
      else loadSegments koff phs kend cap
    else do
      let e ← loadSegment koff ph kend
      loadSegments koff phs e cap

/-- `Elf::load`, src/loader/elf/mod.rs:203-300. -/
def elfLoad (koff highmem : Option GuestAddr) : LM LS LoadError LoadResult := do
  seekStart 0 (.elf .seekElfStart)
  let eh ← readExact 64 (.elf .readElfHeader)
  LM.ofRes (validateHeader eh)
  checkEntry highmem (ehEntry eh)
  let kload ← elfKernelLoad koff (ehEntry eh)
  seekStart (ehPhoff eh) (.elf .seekProgramHeader)
  let phdrs ← readPhdrs (ehPhnum eh)
  let r ← loadSegments koff phdrs 0 .ignored
  pure ⟨kload, r.1, none, r.2⟩

/-- `Cmdline::get_null_terminated_representation_size`, src/cmdline/mod.rs:353-363. -/
def nullTerminatedSize (c : Cmdline) : Nat :=
  let size := wrapAdd c.bootArgs.utf8Len 1
  if c.initArgs ≠ [] then
    wrapAdd size (wrapAdd initArgsSeparator.utf8Len c.initArgs.utf8Len)
  else size

/-- Steps 1 and 2 of `Cmdline::insert_str`, src/cmdline/mod.rs:266-285. -/
def checkInsertStr (c : Cmdline) (slug : Str) : Res CmdlineError Str :=
  let s := trim slug
  (validStr s).bind fun _ =>
  let size := nullTerminatedSize c
  (if c.bootArgs ≠ [] then okOr (checkedAdd size 1) .tooLarge else .ok size).bind fun size =>
  (okOr (checkedAdd size s.utf8Len) .tooLarge).bind fun size =>
  if size > c.capacity.toNat then .err .tooLarge else .ok s

/-- `Cmdline::insert_str`, src/cmdline/mod.rs:265-295. -/
def insertStr (c : Cmdline) (slug : Str) : Cmdline × Res CmdlineError Unit :=
  match checkInsertStr c slug with
  | .ok s =>
    let boot := if c.bootArgs ≠ [] then c.bootArgs ++ [' '] else c.bootArgs
    ({ c with bootArgs := boot ++ s }, .ok ())
  | .err e => (c, .err e)
  | .panic => (c, .panic)

/-- Steps 1 and 2 of `Cmdline::insert_init_args`, src/cmdline/mod.rs:318-341. -/
def checkInsertInit (c : Cmdline) (slug : Str) : Res CmdlineError Str :=
  let s := trim slug
  (validStr s).bind fun _ =>
  let size := nullTerminatedSize c
  (okOr (checkedAdd size (if c.initArgs = [] then initArgsSeparator.utf8Len else 1))
    .tooLarge).bind fun size =>
  (okOr (checkedAdd size s.utf8Len) .tooLarge).bind fun size =>
  if size > c.capacity.toNat then .err .tooLarge else .ok s

/-- `Cmdline::insert_init_args`, src/cmdline/mod.rs:317-351. -/
def insertInitArgs (c : Cmdline) (slug : Str) : Cmdline × Res CmdlineError Unit :=
  match checkInsertInit c slug with
  | .ok s =>
    let init := if c.initArgs ≠ [] then c.initArgs ++ [' '] else c.initArgs
    ({ c with initArgs := init ++ s }, .ok ())
  | .err e => (c, .err e)
  | .panic => (c, .panic)

/-- `Cmdline::insert`, src/cmdline/mod.rs:194-204. -/
def insert (c : Cmdline) (k v : Str) : Cmdline × Res CmdlineError Unit :=
  match (validKey k).bind fun _ => validValue v with
  | .ok _ => insertStr c (k ++ ['='] ++ v)
  | .err e => (c, .err e)
  | .panic => (c, .panic)

/-- `Cmdline::insert_multiple`, src/cmdline/mod.rs:226-247. -/
def insertMultiple (c : Cmdline) (k : Str) (vals : List Str) : Cmdline × Res CmdlineError Unit :=
  match (validKey k).bind fun _ =>
        if vals = [] then .err (.missingVal k) else Cmdline.validateValues vals with
  | .ok vs => insertStr c (k ++ ['='] ++ Cmdline.joinComma vs)
  | .err e => (c, .err e)
  | .panic => (c, .panic)

/-- `Cmdline::add_virtio_mmio_device`, src/cmdline/mod.rs:431-452. -/
def addVirtioMmioDevice (c : Cmdline) (size : UInt64) (base : GuestAddr) (irq : UInt32)
    (id : Option UInt32) : Cmdline × Res CmdlineError Unit :=
  if size = 0 then (c, .err .mmioSize)
  else insertStr c (Cmdline.deviceStr size base irq id)

/-- One builder call. The methods src/cmdline/mod.rs:194, 226, 265, 317, 431. -/
def step (c : Cmdline) : Cmdline.Op → Cmdline × Res CmdlineError Unit
  | .insert k v => insert c k v
  | .insertMultiple k vs => insertMultiple c k vs
  | .insertStr s => insertStr c s
  | .insertInitArgs s => insertInitArgs c s
  | .addVirtio size base irq id => addVirtioMmioDevice c size base irq id

/-- The command line after a history of builder calls. A caller of src/cmdline/mod.rs:194-452. -/
def run (c : Cmdline) (ops : List Cmdline.Op) : Cmdline := ops.foldl (fun c op => (step c op).1) c

/-- `BootParams::add_boot_parameter_to_list`, src/configurator/mod.rs:399-421. -/
def addToList (elem : List UInt8) (elemStart : Option GuestAddr) : LM PList ListError GuestAddr :=
  fun l0 =>
    let l := if l0.start.isNone then { l0 with start := elemStart } else l0
    match l.start with
    | none => (.err .missingStartAddress, l)
    | some listStart =>
      match addrAddNat listStart l.bytes.length with
      | none => (.err .overflow, l)
      | some listEnd =>
        let start := elemStart.getD listEnd
        match addrSub start listStart with
        | none => (.err .invalidAddress, l)
        | some off =>
          let fin := wrapAdd off.toNat elem.length
          match (vecResize l.bytes (max fin l.bytes.length)).bind fun b =>
                vecSplice b off.toNat fin elem with
          | .ok b => (.ok start, { l with bytes := b })
          | .err e => (.err e, l)
          | .panic => (.panic, l)

end LinuxLoader.Release
