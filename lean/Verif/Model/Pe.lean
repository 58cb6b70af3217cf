import Verif.Model.Elf

/-! # Model of src/loader/pe/mod.rs (arm64 and riscv64 `Image` files, device tree blobs) -/

namespace LinuxLoader

/-- `cfg(target_arch)`. src/loader/pe/mod.rs:75-122, 149-176. -/
inductive PeArch where
  | arm64
  | riscv64
deriving DecidableEq, Repr

/-- The header fields are at the same offsets in `arm64_image_header` and `riscv64_image_header`,
src/loader/pe/mod.rs:81-92, 105-117: `text_offset`. -/
def peTextField (h : List UInt8) : Nat := leField h 8 8
/-- `image_size`, src/loader/pe/mod.rs:81-92. -/
def peImageSize (h : List UInt8) : Nat := leField h 16 8
/-- `magic` (arm64) respectively `magic2` (riscv64), src/loader/pe/mod.rs:81-92, 105-117. -/
def peMagic (h : List UInt8) : Nat := leField h 56 4

/-- The expected magic number, src/loader/pe/mod.rs:160-167. -/
def PeArch.magic : PeArch → Nat
  | .arm64 => 0x644d5241
  | .riscv64 => 0x05435352

/-- `text_offset`, src/loader/pe/mod.rs:169-176. -/
def peTextOffset (arch : PeArch) (h : List UInt8) : Nat :=
  match arch with
  | .arm64 => if peImageSize h = 0 then 0x80000 else peTextField h
  | .riscv64 => peTextField h

/-- The alignment check, src/loader/pe/mod.rs:178-184. -/
def peCheckAlign (koff : Option GuestAddr) : LM LS LoadError Unit :=
  match koff with
  | some k => LM.require (k.toNat % 0x200000 == 0) (.pe .invalidBaseAddrAlignment)
  | none => pure ()

/-- `kernel_offset.unwrap_or(GuestAddress(0))`, src/loader/pe/mod.rs:186-187. -/
def peBase (koff : Option GuestAddr) : Nat :=
  match koff with
  | some k => k.toNat
  | none => 0

/-- `PE::load`, src/loader/pe/mod.rs:136-207. `highmem_start_address` is ignored. -/
def peLoad (arch : PeArch) (koff _highmem : Option GuestAddr) : LM LS LoadError LoadResult := do
  let size ← seekEnd (.pe .seekImageEnd)
  seekStart 0 (.pe .seekImageHeader)
  let h ← readExact 64 (.pe .readImageHeader)
  LM.require (peMagic h == arch.magic) (.pe .invalidImageMagicNumber)
  peCheckAlign koff
  let a ← LM.okOr (checkedAdd (peBase koff) (peTextOffset arch h)) (.pe .invalidImage)
  seekStart 0 (.pe .seekImageHeader)
  readIntoMem a size (.pe .readKernelImage)
  let e ← LM.okOr (checkedAdd a size) .memoryOverflow
  pure ⟨a, e, none, .ignored⟩

/-- `load_dtb`, src/loader/pe/mod.rs:218-236. -/
def loadDtb (a : GuestAddr) : LM LS LoadError Unit := do
  let size ← seekEnd (.pe .seekDtbEnd)
  LM.require (decide (size ≤ 0x200000)) (.pe .dtbTooBig)
  seekStart 0 (.pe .seekDtbStart)
  readIntoMem a.toNat size (.pe .readDtbImage)

end LinuxLoader
