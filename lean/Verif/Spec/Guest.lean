import Verif.Spec.Boot
import Verif.Spec.ZeroPage
import Verif.Spec.Kernel

/-!
# What the guest finds when it starts

A Linux guest starting from the zero page, and a PVH guest starting from the start info structure,
follow the pointers they find in memory. Written down from Documentation/arch/x86/boot.rst,
zero-page.rst (`cmd_line_ptr`, `ext_cmd_line_ptr`, `code32_start`, `e820_entries`, `e820_table`) and
xen/include/public/arch-x86/hvm/start_info.h, over a memory given as a function from addresses to bytes.
-/

namespace LinuxLoader.Spec

/-- The bytes at `x` before the first NUL, at most `n`. -/
def cstr (f : Nat → UInt8) (x : Nat) : Nat → List UInt8
  | 0 => []
  | n + 1 => if f x = 0 then [] else f x :: cstr f (x + 1) n

/-- Bytes as characters. -/
def ascii (bs : List UInt8) : Str := bs.map fun b => Char.ofNat b.toNat

/-! ## Linux boot protocol -/

/-- Where the kernel looks for its command line: `cmd_line_ptr` of the setup header, with
`ext_cmd_line_ptr` as the upper half. -/
def linuxCmdlineAddr (f : Nat → UInt8) (zp : Nat) : Nat :=
  readLE f (zp + 0x228) 4 + 0x100000000 * readLE f (zp + 0xc8) 4

/-- The command line the kernel sees; it reads at most `n` bytes. -/
def linuxCmdline (f : Nat → UInt8) (zp n : Nat) : Str := ascii (cstr f (linuxCmdlineAddr f zp) n)

/-- The memory map the kernel sees: as many entries (address, size, type) as `e820_entries` says. -/
def linuxMemmap (f : Nat → UInt8) (zp : Nat) : List (Nat × Nat × Nat) :=
  (List.range (readLE f (zp + 0x1e8) 1)).map fun i =>
    (readLE f (zp + 0x2d0 + 20 * i) 8, readLE f (zp + 0x2d0 + 20 * i + 8) 8,
      readLE f (zp + 0x2d0 + 20 * i + 16) 4)

/-- The protected-mode entry point the kernel's setup code jumps to. -/
def linuxCode32 (f : Nat → UInt8) (zp : Nat) : Nat := readLE f (zp + 0x214) 4

/-! ## PVH -/

/-- The command line a PVH guest sees. -/
def pvhCmdline (f : Nat → UInt8) (si n : Nat) : Str := ascii (cstr f (readLE f (si + 24) 8) n)

/-- The memory map a PVH guest sees: address, size, type. -/
def pvhMemmap (f : Nat → UInt8) (si : Nat) : List (Nat × Nat × Nat) :=
  (List.range (readLE f (si + 48) 4)).map fun i =>
    let a := readLE f (si + 40) 8 + 24 * i
    (readLE f a 8, readLE f (a + 8) 8, readLE f (a + 16) 4)

/-- The modules a PVH guest sees: address, size, address of the command line. -/
def pvhModules (f : Nat → UInt8) (si : Nat) : List (Nat × Nat × Nat) :=
  (List.range (readLE f (si + 12) 4)).map fun i =>
    let a := readLE f (si + 16) 8 + 32 * i
    (readLE f a 8, readLE f (a + 8) 8, readLE f (a + 16) 8)

end LinuxLoader.Spec
