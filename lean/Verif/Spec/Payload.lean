import Verif.Spec.Guest

/-!
# What the guest finds behind the pointers: initial ramdisk, setup_data, modules (C102)

Documentation/arch/x86/boot.rst (`ramdisk_image`, `ramdisk_size`, `setup_data`), zero-page.rst
(`ext_ramdisk_image`, `ext_ramdisk_size`), xen/include/public/arch-x86/hvm/start_info.h, over a memory given as a
function from addresses to bytes.
-/

namespace LinuxLoader.Spec

/-- `n` bytes of memory from `x` on. -/
def bytesAt (f : Nat → UInt8) (x n : Nat) : List UInt8 := (List.range n).map fun i => f (x + i)

/-- The initial ramdisk a Linux guest finds from its zero page. -/
def linuxInitrd (f : Nat → UInt8) (zp : Nat) : List UInt8 :=
  bytesAt f (readLE f (zp + 0x218) 4 + 0x100000000 * readLE f (zp + 0xc0) 4)
    (readLE f (zp + 0x21c) 4 + 0x100000000 * readLE f (zp + 0xc4) 4)

/-- The linked list that starts at `p`: `next` (8 bytes, 0 at the end), `type` (4), `len` (4) and the data.
Type and data of at most `n` nodes. -/
def setupNodes (f : Nat → UInt8) : Nat → Nat → List (Nat × List UInt8)
  | _, 0 => []
  | p, n + 1 => if p = 0 then [] else
    (readLE f (p + 8) 4, bytesAt f (p + 16) (readLE f (p + 12) 4)) :: setupNodes f (readLE f p 8) n

/-- The `setup_data` a Linux guest finds from its zero page, at most `n` nodes. -/
def linuxSetupData (f : Nat → UInt8) (zp n : Nat) : List (Nat × List UInt8) :=
  setupNodes f (readLE f (zp + 0x250) 8) n

/-- The modules a PVH guest finds: contents, and the command line of at most `n` bytes (nothing at address 0). -/
def pvhModuleData (f : Nat → UInt8) (si n : Nat) : List (List UInt8 × Option (List UInt8)) :=
  (pvhModules f si).map fun m =>
    (bytesAt f m.1 m.2.1, if m.2.2 = 0 then none else some (cstr f m.2.2 n))

/-- A node as the VMM writes it. -/
def setupNode (next type : Nat) (data : List UInt8) : List UInt8 :=
  leBytes 8 next ++ leBytes 4 type ++ leBytes 4 data.length ++ data

/-- A list of nodes (address, type, data): what the VMM writes, and where. -/
def setupChain : List (GuestAddr × UInt32 × List UInt8) → List (GuestAddr × List UInt8)
  | [] => []
  | (a, t, d) :: rest =>
    (a, setupNode ((rest.head?.map fun n => n.1.toNat).getD 0) t.toNat d) :: setupChain rest

end LinuxLoader.Spec
