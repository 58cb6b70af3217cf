import Verif.Model.Monad

/-!
# Guest memory

The contract of `vm_memory` 0.18 (`GuestMemoryBackend`, `Bytes<GuestAddress>`), which is a dependency
and not part of `/repo`. It is modelled from its documentation and source as follows.

* Guest memory is a list of regions; an address is mapped if it lies in a region. Contents are one
  byte per mapped address (`data` at unmapped addresses is never read).
* `write_slice` / `read_exact_volatile_from` walk through the regions from the start address and
  transfer bytes up to the first unmapped address; they return `Ok` iff everything was transferred.
* A zero-length access at an unmapped address is an error in some versions of vm-memory
  (`try_access`) and fine in others (`get_slices`): parameter `emptyOk`.
-/

namespace LinuxLoader

/-- `GuestMemoryRegion`: start address and length. Part of the `M: GuestMemoryBackend` of
src/loader/mod.rs:176-183, 222-223. -/
structure Region where
  start : Nat
  len : Nat
deriving DecidableEq, Repr

/-- `GuestMemoryBackend`. The `M: GuestMemoryBackend` of src/loader/mod.rs:176-183, 222-223,
src/configurator/mod.rs:124-126. -/
structure Mem where
  regions : List Region
  data : Nat → UInt8
  emptyOk : Bool

namespace Mem

/-- `GuestMemoryBackend::address_in_range` (vm-memory). Used by `checked_offset`:
src/configurator/x86_64/linux.rs:105, src/configurator/x86_64/pvh.rs:160, 167,
src/configurator/fdt.rs:85. -/
def mapped (m : Mem) (x : Nat) : Bool :=
  m.regions.any fun r => decide (r.start ≤ x) && decide (x < r.start + r.len)

/-- Regions as vm-memory creates them: non-empty, ending at or below `2^64 - 1`
(`GuestRegionMmap::new` rejects regions for which `base + size` overflows), not overlapping. What the
`guest_mem` of src/loader/mod.rs:176-183 satisfies. -/
def WF (m : Mem) : Prop :=
  (∀ r ∈ m.regions, 0 < r.len ∧ r.start + r.len < U64) ∧
  m.regions.Pairwise fun r s => r.start + r.len ≤ s.start ∨ s.start + s.len ≤ r.start

/-- Number of consecutive mapped addresses starting at `a`, at most `n`. Used by the calls at
src/loader/mod.rs:246, src/configurator/x86_64/linux.rs:108, src/configurator/x86_64/pvh.rs:163, 170,
176, src/configurator/fdt.rs:90, src/loader/elf/mod.rs:286, src/loader/bzimage/mod.rs:175,
src/loader/pe/mod.rs:198, 234. -/
def mappedPrefix (m : Mem) (a : Nat) : Nat → Nat
  | 0 => 0
  | n + 1 => if m.mapped a then m.mappedPrefix (a + 1) n + 1 else 0

/-- Contents after `bs` has been stored at `a`. Used by the calls at src/loader/mod.rs:246,
src/configurator/x86_64/linux.rs:108, src/configurator/x86_64/pvh.rs:163, 170, 176,
src/configurator/fdt.rs:90, src/loader/elf/mod.rs:286, src/loader/bzimage/mod.rs:175,
src/loader/pe/mod.rs:198, 234. -/
def put (f : Nat → UInt8) (a : Nat) (bs : List UInt8) : Nat → UInt8 := fun x =>
  if a ≤ x then (bs[x - a]?).getD (f x) else f x

/-- The memory with `bs` stored at `a`. Used by the calls at src/loader/mod.rs:246,
src/configurator/x86_64/linux.rs:108, src/configurator/x86_64/pvh.rs:163, 170, 176,
src/configurator/fdt.rs:90, src/loader/elf/mod.rs:286, src/loader/bzimage/mod.rs:175,
src/loader/pe/mod.rs:198, 234. -/
def store (m : Mem) (a : Nat) (bs : List UInt8) : Mem := { m with data := put m.data a bs }

/-- `n` bytes at `a` can be transferred completely. Used by the calls at src/loader/mod.rs:246,
src/configurator/x86_64/linux.rs:108, src/configurator/x86_64/pvh.rs:163, 170, 176,
src/configurator/fdt.rs:90, src/loader/elf/mod.rs:286, src/loader/bzimage/mod.rs:175,
src/loader/pe/mod.rs:198, 234. -/
def canAccess (m : Mem) (a n : Nat) : Bool :=
  m.mappedPrefix a n == n && (n != 0 || m.emptyOk || m.mapped a)

/-- `Bytes::write_slice` (vm-memory): stores the mapped prefix; `true` for `Ok`. Calls:
src/loader/mod.rs:246, src/configurator/x86_64/linux.rs:108, src/configurator/x86_64/pvh.rs:163, 170,
176, src/configurator/fdt.rs:90. -/
def writeSlice (m : Mem) (bs : List UInt8) (a : GuestAddr) : Bool × Mem :=
  (m.canAccess a.toNat bs.length, m.store a.toNat (bs.take (m.mappedPrefix a.toNat bs.length)))

/-- `GuestMemoryBackend::checked_offset` (vm-memory): `base + n` without overflow, and that address
must be mapped. Calls: src/configurator/x86_64/linux.rs:105, src/configurator/x86_64/pvh.rs:160, 167,
src/configurator/fdt.rs:85. -/
def checkedOffset (m : Mem) (base : GuestAddr) (n : Nat) : Option GuestAddr :=
  match addrAddNat base n with
  | some a => if m.mapped a.toNat then some a else none
  | none => none

/-- `GuestMemoryBackend::last_addr` (vm-memory): maximum of the regions' last addresses, 0 without
regions. Call: src/loader/mod.rs:241. -/
def lastAddr (m : Mem) : Nat := m.regions.foldl (fun acc r => max acc (r.start + r.len - 1)) 0

end Mem
end LinuxLoader
