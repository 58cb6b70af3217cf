import Verif.Model.Elf

/-!
# Model of src/loader/bzimage/mod.rs

The setup header is modelled by its 123 bytes; the offsets of its fields are those of
`bootparam::setup_header` (src/loader_gen/x86_64/bootparam.rs, checked in `C56_setup_header`).
-/

namespace LinuxLoader

/-- `setup_header.setup_sects`, src/loader_gen/x86_64/bootparam.rs:240; used in
src/loader/bzimage/mod.rs:128-160. -/
def shSetupSects (h : List UInt8) : Nat := leField h 0 1
/-- `setup_header.header`, src/loader_gen/x86_64/bootparam.rs:248; used in
src/loader/bzimage/mod.rs:128-160. -/
def shMagic (h : List UInt8) : Nat := leField h 0x11 4
/-- `setup_header.version`, src/loader_gen/x86_64/bootparam.rs:249; used in
src/loader/bzimage/mod.rs:128-160. -/
def shVersion (h : List UInt8) : Nat := leField h 0x15 2
/-- `setup_header.loadflags`, src/loader_gen/x86_64/bootparam.rs:254; used in
src/loader/bzimage/mod.rs:128-160. -/
def shLoadflags (h : List UInt8) : Nat := leField h 0x20 1
/-- `setup_header.code32_start`, src/loader_gen/x86_64/bootparam.rs:256; used in
src/loader/bzimage/mod.rs:128-160. -/
def shCode32 (h : List UInt8) : Nat := leField h 0x23 4

/-- `boot_header.code32_start = v as u32`, src/loader/bzimage/mod.rs:162. -/
def setCode32 (h : List UInt8) (v : Nat) : List UInt8 := h.take 0x23 ++ leBytes 4 v ++ h.drop 0x27

/-- `usize::checked_sub` (std), used in src/loader/bzimage/mod.rs:145-147. -/
def checkedSub (a b : Nat) : Option Nat := if b ≤ a then some (a - b) else none

/-- `usize::checked_mul` (std), used in src/loader/bzimage/mod.rs:143. -/
def checkedMul (a b : Nat) : Option Nat := if a * b < U64 then some (a * b) else none

/-- `setup_size`, src/loader/bzimage/mod.rs:137-144. -/
def bzSetupSize (sects : Nat) : Option Nat :=
  (checkedAdd (if sects = 0 then 4 else sects) 1).bind fun n => checkedMul n 512

/-- The high memory check, src/loader/bzimage/mod.rs:149-155: on `code32_start` of the image. -/
def bzCheckHighmem (highmem : Option GuestAddr) (code32 : Nat) : LM LS LoadError Unit :=
  match highmem with
  | some h => LM.require (decide (h.toNat ≤ code32)) .invalidKernelStartAddress
  | none => pure ()

/-- `mem_offset`, src/loader/bzimage/mod.rs:157-160. -/
def bzMemOffset (koff : Option GuestAddr) (code32 : Nat) : Nat :=
  match koff with
  | some k => k.toNat
  | none => code32

/-- `BzImage::load` after the header has been read, src/loader/bzimage/mod.rs:125-183. -/
def bzRest (koff highmem : Option GuestAddr) (size : Nat) (h : List UInt8) :
    LM LS LoadError LoadResult := do
  LM.require (shMagic h == 0x53726448) (.bz .invalidBzImage)
  LM.require (!(decide (shVersion h < 0x200) || shLoadflags h &&& 1 == 0)) (.bz .invalidBzImage)
  let setup ← LM.okOr (bzSetupSize (shSetupSects h)) (.bz .overflow)
  let ksize ← LM.okOr (checkedSub size setup) (.bz .underflow)
  bzCheckHighmem highmem (shCode32 h)
  let a := bzMemOffset koff (shCode32 h)
  seekStart setup (.bz .seekBzImageCompressedKernel)
  readIntoMem a ksize (.bz .readBzImageCompressedKernel)
  let e ← LM.okOr (checkedAdd a ksize) .memoryOverflow
  pure ⟨a, e, some (setCode32 h a), .ignored⟩

/-- `BzImage::load`, src/loader/bzimage/mod.rs:105-184. The header is read by one `read_volatile`
whose byte count is ignored; the buffer is the zeroed default header. -/
def bzLoad (koff highmem : Option GuestAddr) : LM LS LoadError LoadResult := do
  let size ← seekEnd (.bz .seekBzImageEnd)
  seekStart 0x1f1 (.bz .seekBzImageHeader)
  let h ← readVolatile 123 (.bz .readBzImageHeader)
  bzRest koff highmem size h

end LinuxLoader
