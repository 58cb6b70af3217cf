import Verif.Model.Pe

/-!
# Hosts of either byte order

The loaders of src/loader/elf and src/loader/bzimage exist on x86_64 only, which is little-endian; src/loader/pe also
exists on `aarch64_be`. `Model/Pe.lean` reads the header fields as little-endian numbers; here the fields are read in
the byte order of the host and converted with `from_le`, as the code does.
-/

namespace LinuxLoader

/-- `cfg(target_endian)`, on which `u32::from_le` and `u64::from_le` in src/loader/pe/mod.rs:161-176 depend. -/
inductive ByteOrder where
  | little
  | big
deriving DecidableEq, Repr

/-- The number that bytes mean, most significant byte first; an integer in memory of a big-endian host,
src/loader/pe/mod.rs:157-158 (`as_mut_slice`). -/
def beNat (b : List UInt8) : Nat := b.foldl (fun acc x => acc * 256 + x.toNat) 0

/-- The `n` low bytes of `v`, most significant first; an integer field of a header in memory of a big-endian host,
src/loader/pe/mod.rs:81-117. -/
def beBytes : Nat → Nat → List UInt8
  | 0, _ => []
  | n + 1, v => UInt8.ofNat (v / 256 ^ n) :: beBytes n v

/-- The value of an integer field of `n` bytes at offset `o` of a header that was filled through `as_mut_slice`,
src/loader/pe/mod.rs:156-176: `image_header.magic` etc. before `from_le`. -/
def ByteOrder.field (host : ByteOrder) (b : List UInt8) (o n : Nat) : Nat :=
  match host with
  | .little => leNat ((b.drop o).take n)
  | .big => beNat ((b.drop o).take n)

/-- The bytes of an integer of `n` bytes in memory of the host (`as_slice`), src/loader/pe/mod.rs:98, 122. -/
def ByteOrder.bytes (host : ByteOrder) (n v : Nat) : List UInt8 :=
  match host with
  | .little => leBytes n v
  | .big => beBytes n v

/-- `swap_bytes` (std) of an integer of `n` bytes; in `from_le`, src/loader/pe/mod.rs:161-176. -/
def swapBytes : Nat → Nat → Nat
  | 0, _ => 0
  | n + 1, v => (v % 256) * 256 ^ n + swapBytes n (v / 256)

/-- `u32::from_le` (`n = 4`) and `u64::from_le` (`n = 8`) (std), also `to_le`; src/loader/pe/mod.rs:161-176. -/
def ByteOrder.fromLe (host : ByteOrder) (n v : Nat) : Nat :=
  match host with
  | .little => v
  | .big => swapBytes n v

/-- `text_offset`, src/loader/pe/mod.rs:169-176. -/
def peTextOffsetOn (host : ByteOrder) (arch : PeArch) (h : List UInt8) : Nat :=
  match arch with
  | .arm64 => if host.fromLe 8 (host.field h 16 8) = 0 then 0x80000 else host.fromLe 8 (host.field h 8 8)
  | .riscv64 => host.fromLe 8 (host.field h 8 8)

/-- `PE::load` on a host of the given byte order, src/loader/pe/mod.rs:136-207. -/
def peLoadOn (host : ByteOrder) (arch : PeArch) (koff _highmem : Option GuestAddr) : LM LS LoadError LoadResult := do
  let size ← seekEnd (.pe .seekImageEnd)
  seekStart 0 (.pe .seekImageHeader)
  let h ← readExact 64 (.pe .readImageHeader)
  LM.require (host.fromLe 4 (host.field h 56 4) == arch.magic) (.pe .invalidImageMagicNumber)
  peCheckAlign koff
  let a ← LM.okOr (checkedAdd (peBase koff) (peTextOffsetOn host arch h)) (.pe .invalidImage)
  seekStart 0 (.pe .seekImageHeader)
  readIntoMem a size (.pe .readKernelImage)
  let e ← LM.okOr (checkedAdd a size) .memoryOverflow
  pure ⟨a, e, none, .ignored⟩

end LinuxLoader
