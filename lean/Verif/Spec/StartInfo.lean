import Verif.Model.Bytes

/-!
# The PVH boot structures as the guest sees them

Offsets from xen/include/public/arch-x86/hvm/start_info.h, written down independently of the layout
computation.
-/

namespace LinuxLoader.Spec

/-- The little-endian integer of `n` bytes at address `x` of memory `f`. -/
def readLE (f : Nat → UInt8) (x : Nat) : Nat → Nat
  | 0 => 0
  | n + 1 => (f x).toNat + 256 * readLE f (x + 1) n

/-- A guest reading `hvm_start_info` at `a` sees `v`. -/
structure StartInfoAt (f : Nat → UInt8) (a : Nat) (v : HvmStartInfo) : Prop where
  magic : readLE f (a + 0) 4 = v.magic.toNat
  version : readLE f (a + 4) 4 = v.version.toNat
  flags : readLE f (a + 8) 4 = v.flags.toNat
  nrModules : readLE f (a + 12) 4 = v.nrModules.toNat
  modlistPaddr : readLE f (a + 16) 8 = v.modlistPaddr.toNat
  cmdlinePaddr : readLE f (a + 24) 8 = v.cmdlinePaddr.toNat
  rsdpPaddr : readLE f (a + 32) 8 = v.rsdpPaddr.toNat
  memmapPaddr : readLE f (a + 40) 8 = v.memmapPaddr.toNat
  memmapEntries : readLE f (a + 48) 4 = v.memmapEntries.toNat
  reserved : readLE f (a + 52) 4 = v.reserved.toNat

/-- A guest reading `hvm_modlist_entry` at `a` sees `v`. -/
structure ModlistEntryAt (f : Nat → UInt8) (a : Nat) (v : HvmModlistEntry) : Prop where
  paddr : readLE f (a + 0) 8 = v.paddr.toNat
  size : readLE f (a + 8) 8 = v.size.toNat
  cmdlinePaddr : readLE f (a + 16) 8 = v.cmdlinePaddr.toNat
  reserved : readLE f (a + 24) 8 = v.reserved.toNat

/-- A guest reading `hvm_memmap_table_entry` at `a` sees `v`. -/
structure MemmapEntryAt (f : Nat → UInt8) (a : Nat) (v : HvmMemmapEntry) : Prop where
  addr : readLE f (a + 0) 8 = v.addr.toNat
  size : readLE f (a + 8) 8 = v.size.toNat
  type_ : readLE f (a + 16) 4 = v.type_.toNat
  reserved : readLE f (a + 20) 4 = v.reserved.toNat

end LinuxLoader.Spec
