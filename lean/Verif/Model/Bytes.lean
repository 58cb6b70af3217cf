import Verif.Model.Layout

/-!
# Little-endian encoding and the PVH boot structures as bytes

`ByteValued::as_slice` (vm-memory) is the memory image of the value: its fields in little-endian at
the offsets of the type's layout (`Model/Layout.lean`).
-/

namespace LinuxLoader

/-- Value of a little-endian byte string (`u16`/`u32`/`u64` in memory on the modelled targets). The
integers in the structures of src/loader_gen/x86_64/bootparam.rs, start_info.rs, elf.rs. -/
def leNat : List UInt8 → Nat
  | [] => 0
  | b :: bs => b.toNat + 256 * leNat bs

/-- The `n` low bytes of `v`, little-endian. The integers in the structures of
src/loader_gen/x86_64/bootparam.rs, start_info.rs, elf.rs. -/
def leBytes : Nat → Nat → List UInt8
  | 0, _ => []
  | n + 1, v => UInt8.ofNat v :: leBytes n (v / 256)

/-- The integer of `n` bytes at offset `o` of a structure's bytes; missing bytes count as 0. Field
accesses such as src/loader/elf/mod.rs:145-158, src/loader/bzimage/mod.rs:128-162,
src/loader/pe/mod.rs:161-176. -/
def leField (b : List UInt8) (o n : Nat) : Nat := leNat ((b.drop o).take n)

/-- Memory image of a structure: the fields' bytes at their offsets, padding as 0. `ByteValued` of
src/loader/mod.rs:189, 194, src/loader/elf/mod.rs:30-38, src/configurator/x86_64/pvh.rs:80-88,
src/loader/pe/mod.rs:97, 122. -/
def encodeFields : List (String × Nat × Nat) → List (List UInt8) → List UInt8 → List UInt8
  | (_, off, _) :: fs, v :: vs, acc =>
    encodeFields fs vs (acc ++ List.replicate (off - acc.length) 0 ++ v)
  | _, _, acc => acc

/-- `as_slice` of a structure with layout `l`. `ByteValued` of src/loader/mod.rs:189, 194,
src/loader/elf/mod.rs:30-38, src/configurator/x86_64/pvh.rs:80-88, src/loader/pe/mod.rs:97, 122. -/
def encode (l : Layout.Layout) (vals : List (List UInt8)) : List UInt8 :=
  let b := encodeFields l.fields vals []
  b ++ List.replicate (l.size - b.length) 0

/-- `hvm_start_info`, src/loader_gen/x86_64/start_info.rs:20-33. -/
structure HvmStartInfo where
  magic : UInt32
  version : UInt32
  flags : UInt32
  nrModules : UInt32
  modlistPaddr : UInt64
  cmdlinePaddr : UInt64
  rsdpPaddr : UInt64
  memmapPaddr : UInt64
  memmapEntries : UInt32
  reserved : UInt32

/-- `hvm_modlist_entry`, src/loader_gen/x86_64/start_info.rs:35-42. -/
structure HvmModlistEntry where
  paddr : UInt64
  size : UInt64
  cmdlinePaddr : UInt64
  reserved : UInt64

/-- `hvm_memmap_table_entry`, src/loader_gen/x86_64/start_info.rs:44-51. -/
structure HvmMemmapEntry where
  addr : UInt64
  size : UInt64
  type_ : UInt32
  reserved : UInt32

/-- `ByteValued::as_slice` (vm-memory) of `hvm_start_info`. Calls: src/configurator/mod.rs:168, 215,
324, 419. -/
def HvmStartInfo.asSlice (v : HvmStartInfo) : List UInt8 :=
  encode Layout.hvmStartInfo
    [leBytes 4 v.magic.toNat, leBytes 4 v.version.toNat, leBytes 4 v.flags.toNat,
     leBytes 4 v.nrModules.toNat, leBytes 8 v.modlistPaddr.toNat, leBytes 8 v.cmdlinePaddr.toNat,
     leBytes 8 v.rsdpPaddr.toNat, leBytes 8 v.memmapPaddr.toNat, leBytes 4 v.memmapEntries.toNat,
     leBytes 4 v.reserved.toNat]

/-- `ByteValued::as_slice` (vm-memory) of `hvm_modlist_entry`. Calls: src/configurator/mod.rs:168,
215, 324, 419. -/
def HvmModlistEntry.asSlice (v : HvmModlistEntry) : List UInt8 :=
  encode Layout.hvmModlistEntry
    [leBytes 8 v.paddr.toNat, leBytes 8 v.size.toNat, leBytes 8 v.cmdlinePaddr.toNat,
     leBytes 8 v.reserved.toNat]

/-- `ByteValued::as_slice` (vm-memory) of `hvm_memmap_table_entry`. Calls:
src/configurator/mod.rs:168, 215, 324, 419. -/
def HvmMemmapEntry.asSlice (v : HvmMemmapEntry) : List UInt8 :=
  encode Layout.hvmMemmapTableEntry
    [leBytes 8 v.addr.toNat, leBytes 8 v.size.toNat, leBytes 4 v.type_.toNat,
     leBytes 4 v.reserved.toNat]

end LinuxLoader
