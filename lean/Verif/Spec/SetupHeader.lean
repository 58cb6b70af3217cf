import Verif.Spec.Images

/-!
# What a Linux kernel for x86 demands of its boot loader (C99)

Documentation/arch/x86/boot.rst, "The Real-Mode Kernel Header". The document gives every field by its offset in
the image file. `field off n` stands for the `n` bytes at offset `off`, wherever somebody reads them:
`imageField` reads them in the image, `headerField` in a copy of the setup header, which begins at 0x1f1.
-/

namespace LinuxLoader.Spec.Setup
open LinuxLoader

/-- Reading a field of the image file. -/
def imageField (img : List UInt8) (off n : Nat) : Nat := leField img off n

/-- Reading the same field in a copy of the setup header. -/
def headerField (hdr : List UInt8) (off n : Nat) : Nat := leField hdr (off - 0x1f1) n

/-- The demands of a kernel. -/
structure Demands where
  /-- Protocol version. -/
  version : Nat
  /-- The kernel is booted in protected mode, above 1 MiB (bit 0 of `loadflags`). -/
  loadedHigh : Bool
  /-- Highest address of the initial ramdisk. -/
  initrdMax : Nat
  /-- The kernel runs at other addresses than `code32_start`. -/
  relocatable : Bool
  /-- Alignment of those addresses. -/
  alignment : Nat
  /-- It has a 64-bit entry point at offset 0x200. -/
  entry64 : Bool
  /-- Kernel, parameters, command line and ramdisk can be above 4 GiB. -/
  above4G : Bool
  /-- Longest command line without NUL. -/
  cmdlineLimit : Nat
  /-- Preferred address. -/
  prefAddress : Nat
  /-- Linear contiguous memory the kernel uses before it looks at the memory map. -/
  initSize : Nat
  /-- Linked list of `setup_data`. -/
  setupData : Nat
deriving DecidableEq

/-- The demands, from the fields as the document describes them. -/
def demands (field : Nat → Nat → Nat) : Demands :=
  let v := field 0x206 2
  { version := v
    loadedHigh := field 0x211 1 % 2 = 1
    initrdMax := if v < 0x203 then 0x37ffffff else field 0x22c 4
    relocatable := 0x205 ≤ v ∧ field 0x234 1 ≠ 0
    alignment := if v < 0x205 then 0 else field 0x230 4
    entry64 := 0x20c ≤ v ∧ field 0x236 2 % 2 = 1
    above4G := 0x20c ≤ v ∧ field 0x236 2 / 2 % 2 = 1
    cmdlineLimit := if v < 0x206 then 255 else field 0x238 4
    prefAddress := if v < 0x20a then 0 else field 0x258 8
    initSize := if v < 0x20a then 0 else field 0x260 4
    setupData := if v < 0x209 then 0 else field 0x250 8 }

/-- The kernel can be loaded at `a`: its default address, or, if it is relocatable, an aligned one. -/
def Suitable (d : Demands) (code32 a : Nat) : Prop :=
  a = code32 ∨ (d.relocatable = true ∧ a % d.alignment = 0)

end LinuxLoader.Spec.Setup
