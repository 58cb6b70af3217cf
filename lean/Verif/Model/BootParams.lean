import Verif.Model.LoadCmdline

/-!
# Model of src/configurator

A `ByteValued` value is represented by the bytes of `as_slice()`; its `size_of` is their number.
Running out of memory (the allocator aborts) is not modelled.
-/

namespace LinuxLoader

/-- The errors of the list operations, `configurator::Error`, src/configurator/mod.rs:49-55. -/
inductive ListError where
  | missingStartAddress
  | overflow
  | invalidAddress
deriving DecidableEq, Repr

/-- A byte buffer and its optional start address: the pair of arguments `bytes_acc` and
`list_start_opt` of src/configurator/mod.rs:402-403, i.e. `sections`/`sections_start` or
`modules`/`modules_start` of `BootParams`. -/
structure PList where
  bytes : List UInt8
  start : Option GuestAddr
deriving DecidableEq, Repr

/-- `GuestAddress::checked_offset_from` (vm-memory). src/configurator/mod.rs:415. -/
def addrSub (a b : GuestAddr) : Option UInt64 :=
  if b.toNat ≤ a.toNat then some (a - b) else none

/-- `Vec::resize(n, 0)` (std): panics with "capacity overflow" above `isize::MAX` bytes.
src/configurator/mod.rs:418. -/
def vecResize {ε : Type} (v : List UInt8) (n : Nat) : Res ε (List UInt8) :=
  if n < ISZ then .ok (v.take n ++ List.replicate (n - v.length) 0) else .panic

/-- `Vec::splice(lo..hi, elems)` (std), dropping the removed elements; panics if the range is not in
the vector. src/configurator/mod.rs:419. -/
def vecSplice {ε : Type} (v : List UInt8) (lo hi : Nat) (elems : List UInt8) :
    Res ε (List UInt8) :=
  if lo ≤ hi ∧ hi ≤ v.length then .ok (v.take lo ++ elems ++ v.drop hi) else .panic

/-- `BootParams::add_boot_parameter_to_list`, src/configurator/mod.rs:399-421. The argument of
`unwrap_or` is evaluated (and can fail) even if there is an element address (lines 409-413). -/
def addToList (elem : List UInt8) (elemStart : Option GuestAddr) : LM PList ListError GuestAddr :=
  fun l0 =>
    -- 405-407
    let l := if l0.start.isNone then { l0 with start := elemStart } else l0
    -- 408
    match l.start with
    | none => (.err .missingStartAddress, l)
    | some listStart =>
      -- 409-413
      match addrAddNat listStart l.bytes.length with
      | none => (.err .overflow, l)
      | some listEnd =>
        let start := elemStart.getD listEnd
        -- 414-416
        match addrSub start listStart with
        | none => (.err .invalidAddress, l)
        | some off =>
          -- 417-420
          match (plainAdd off.toNat elem.length).bind fun fin =>
              (vecResize l.bytes (max fin l.bytes.length)).bind fun b =>
                vecSplice b off.toNat fin elem with
          | .ok b => (.ok start, { l with bytes := b })
          | .err e => (.err e, l)
          | .panic => (.panic, l)

/-- `BootParams`, src/configurator/mod.rs:131-145. -/
structure BootParams where
  header : List UInt8
  headerStart : GuestAddr
  sections : Option (List UInt8)
  sectionsStart : Option GuestAddr
  modules : Option (List UInt8)
  modulesStart : Option GuestAddr
deriving DecidableEq, Repr

namespace BootParams

/-- `BootParams::new`, src/configurator/mod.rs:166-175. -/
def new (header : List UInt8) (addr : GuestAddr) : BootParams :=
  ⟨header, addr, none, none, none, none⟩

/-- `BootParams::set_sections`, src/configurator/mod.rs:211-219. -/
def setSections (p : BootParams) (elems : List (List UInt8)) (addr : GuestAddr) : BootParams :=
  { p with sections := some elems.flatten, sectionsStart := some addr }

/-- `BootParams::add_section`, src/configurator/mod.rs:274-285: the list is created if missing. -/
def addSection (p : BootParams) (elem : List UInt8) (addr : Option GuestAddr) :
    Res ListError GuestAddr × BootParams :=
  match addToList elem addr ⟨p.sections.getD [], p.sectionsStart⟩ with
  | (r, l) => (r, { p with sections := some l.bytes, sectionsStart := l.start })

/-- `BootParams::set_modules`, src/configurator/mod.rs:320-328. -/
def setModules (p : BootParams) (elems : List (List UInt8)) (addr : GuestAddr) : BootParams :=
  { p with modules := some elems.flatten, modulesStart := some addr }

/-- `BootParams::add_module`, src/configurator/mod.rs:383-394. -/
def addModule (p : BootParams) (elem : List UInt8) (addr : Option GuestAddr) :
    Res ListError GuestAddr × BootParams :=
  match addToList elem addr ⟨p.modules.getD [], p.modulesStart⟩ with
  | (r, l) => (r, { p with modules := some l.bytes, modulesStart := l.start })

end BootParams

/-- A call on `BootParams`. src/configurator/mod.rs:166, 211, 274, 320, 383. -/
inductive ParamOp where
  | setSections (elems : List (List UInt8)) (addr : GuestAddr)
  | addSection (elem : List UInt8) (addr : Option GuestAddr)
  | setModules (elems : List (List UInt8)) (addr : GuestAddr)
  | addModule (elem : List UInt8) (addr : Option GuestAddr)
deriving DecidableEq, Repr

/-- One call; `set_*` return nothing, which is recorded as `Ok` of the given address.
src/configurator/mod.rs:166, 211, 274, 320, 383. -/
def BootParams.step (p : BootParams) : ParamOp → Res ListError GuestAddr × BootParams
  | .setSections es a => (.ok a, p.setSections es a)
  | .addSection e a => p.addSection e a
  | .setModules es a => (.ok a, p.setModules es a)
  | .addModule e a => p.addModule e a

/-- A sequence of calls: the observed outcomes, and the final boot parameters. A caller of
src/configurator/mod.rs:166, 211, 274, 320, 383. -/
def BootParams.run (p : BootParams) : List ParamOp → List (ParamOp × Res ListError GuestAddr) × BootParams
  | [] => ([], p)
  | op :: ops => ((op, (p.step op).1) :: ((p.step op).2.run ops).1, ((p.step op).2.run ops).2)

/-- `linux::Error`, src/configurator/x86_64/linux.rs. -/
inductive LinuxError where
  | zeroPagePastRamEnd
  | zeroPageSetup
deriving DecidableEq, Repr

/-- `LinuxBootConfigurator::write_bootparams`, src/configurator/x86_64/linux.rs:98-112. -/
def linuxWrite (p : BootParams) : LM Mem LinuxError Unit := do
  let _ ← checkedOffsetOr p.headerStart p.header.length .zeroPagePastRamEnd
  writeSliceOr p.header p.headerStart .zeroPageSetup

/-- `fdt::Error`, src/configurator/fdt.rs:15-20. -/
inductive FdtError where
  | fdtPastRamEnd
  | writeFdtToMemory
deriving DecidableEq, Repr

/-- `FdtBootConfigurator::write_bootparams`, src/configurator/fdt.rs:80-92. -/
def fdtWrite (p : BootParams) : LM Mem FdtError Unit := do
  let _ ← checkedOffsetOr p.headerStart p.header.length .fdtPastRamEnd
  writeSliceOr p.header p.headerStart .writeFdtToMemory

/-- `pvh::Error`, src/configurator/x86_64/pvh.rs:29-46. -/
inductive PvhError where
  | memmapTableAddressMissing
  | memmapTableMissing
  | memmapTablePastRamEnd
  | memmapTableSetup
  | startInfoPastRamEnd
  | startInfoSetup
  | modulesAddressMissing
  | modulesSetup
deriving DecidableEq, Repr

/-- The module part of `PvhBootConfigurator::write_bootparams`,
src/configurator/x86_64/pvh.rs:172-177. -/
def pvhWriteModules (p : BootParams) : LM Mem PvhError Unit :=
  match p.modules with
  | none => pure ()
  | some modules => do
    let a ← LM.okOr p.modulesStart .modulesAddressMissing
    writeSliceOr modules a .modulesSetup

/-- `PvhBootConfigurator::write_bootparams`, src/configurator/x86_64/pvh.rs:146-181. -/
def pvhWrite (p : BootParams) : LM Mem PvhError Unit := do
  let memmap ← LM.okOr p.sections .memmapTableMissing
  let memmapAddr ← LM.okOr p.sectionsStart .memmapTableAddressMissing
  let _ ← checkedOffsetOr memmapAddr memmap.length .memmapTablePastRamEnd
  writeSliceOr memmap memmapAddr .memmapTableSetup
  let _ ← checkedOffsetOr p.headerStart p.header.length .startInfoPastRamEnd
  writeSliceOr p.header p.headerStart .startInfoSetup
  pvhWriteModules p

end LinuxLoader
