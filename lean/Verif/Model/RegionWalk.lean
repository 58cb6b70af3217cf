import Verif.Model.GuestMem

/-!
# How vm-memory accesses a range of guest memory

`vm_memory` is a dependency and not part of `/repo`; this file models, step by step, the two algorithms
with which its versions implement `Bytes<GuestAddress>` for a guest memory that consists of regions:

* the loop of `GuestMemory::try_access` (up to 0.16, deprecated later);
* the iterator `GuestMemory::get_slices` followed by `stop_on_error` (0.17 and later).

`Model/GuestMem.lean` states the outcome of either of them as one step (`Mem.writeSlice`), and `C71`
proves that this is the same. Addresses are natural numbers here: in memories with well-formed regions
the loops never leave the 64-bit range, since a region ends below `2^64`.
-/

namespace LinuxLoader

/-- `GuestMemory::find_region` (vm-memory): a binary search there, a linear one here; regions do not
overlap. Behind the calls at src/loader/mod.rs:246, src/configurator/x86_64/linux.rs:108,
src/configurator/x86_64/pvh.rs:163, 170, 176, src/configurator/fdt.rs:90, src/loader/elf/mod.rs:286,
src/loader/bzimage/mod.rs:175, src/loader/pe/mod.rs:198, 234. -/
def findRegion (rs : List Region) (x : Nat) : Option Region :=
  rs.find? fun r => decide (r.start ≤ x) && decide (x < r.start + r.len)

/-- `GuestMemory::try_access(count, addr, f)` (vm-memory). The callback gets the number of bytes done
so far, the number of bytes wanted and their address, and returns the number of bytes it transferred
or an error (`none`). `fuel` bounds the number of iterations; the callers provide enough. Behind the
calls at src/loader/mod.rs:246, src/configurator/x86_64/linux.rs:108,
src/configurator/x86_64/pvh.rs:163, 170, 176, src/configurator/fdt.rs:90, src/loader/elf/mod.rs:286,
src/loader/bzimage/mod.rs:175, src/loader/pe/mod.rs:198, 234. -/
def tryAccess {σ : Type} (rs : List Region) (count : Nat) (f : Nat → Nat → Nat → σ → Option Nat × σ) :
    Nat → Nat → Nat → σ → Option Nat × σ
  | 0, _, _, s => (none, s)
  | fuel + 1, cur, total, s =>
    match findRegion rs cur with
    | none => (if total = 0 then none else some total, s)
    | some r =>
      match f total (min (r.start + r.len - cur) (count - total)) cur s with
      | (none, s') => (none, s')
      | (some 0, s') => (some total, s')
      | (some (n + 1), s') =>
        if total + (n + 1) < count then tryAccess rs count f fuel (cur + (n + 1)) (total + (n + 1)) s'
        else if total + (n + 1) = count then (some count, s')
        else (none, s')

/-- `Bytes::write_slice` on top of `try_access` (vm-memory): the callback writes all it is asked for.
Behind the calls at src/loader/mod.rs:246, src/configurator/x86_64/linux.rs:108,
src/configurator/x86_64/pvh.rs:163, 170, 176, src/configurator/fdt.rs:90. -/
def writeSliceTry (m : Mem) (bs : List UInt8) (a : GuestAddr) : Bool × Mem :=
  let r := tryAccess m.regions bs.length
    (fun total len cur (m : Mem) => (some len, m.store cur ((bs.drop total).take len)))
    (bs.length + 1) a.toNat 0 m
  (r.1 == some bs.length, r.2)

/-- The items of `GuestMemory::get_slices(addr, count)` (vm-memory): address and length of the pieces,
and whether the iteration ended with an error. Behind the calls at src/loader/mod.rs:246,
src/configurator/x86_64/linux.rs:108, src/configurator/x86_64/pvh.rs:163, 170, 176,
src/configurator/fdt.rs:90, src/loader/elf/mod.rs:286, src/loader/bzimage/mod.rs:175,
src/loader/pe/mod.rs:198, 234. -/
def getSlices (rs : List Region) : Nat → Nat → Nat → List (Nat × Nat) × Bool
  | 0, _, _ => ([], false)
  | fuel + 1, a, count =>
    if count = 0 then ([], false)
    else match findRegion rs a with
      | none => ([], true)
      | some r =>
        let len := min (r.start + r.len - a) count
        let t := getSlices rs fuel (a + len) (count - len)
        ((a, len) :: t.1, t.2)

/-- `stop_on_error` (vm-memory): an error if the first item is one, otherwise the items before the
first error. Behind the calls at src/loader/mod.rs:246, src/configurator/x86_64/linux.rs:108,
src/configurator/x86_64/pvh.rs:163, 170, 176, src/configurator/fdt.rs:90, src/loader/elf/mod.rs:286,
src/loader/bzimage/mod.rs:175, src/loader/pe/mod.rs:198, 234. -/
def stopOnError (r : List (Nat × Nat) × Bool) : Option (List (Nat × Nat)) :=
  if r.1 = [] ∧ r.2 = true then none else some r.1

/-- The `try_fold` with which `Bytes::write` goes through the slices (vm-memory): bytes written.
Behind the calls at src/loader/mod.rs:246, src/configurator/x86_64/linux.rs:108,
src/configurator/x86_64/pvh.rs:163, 170, 176, src/configurator/fdt.rs:90. -/
def writeSlices (bs : List UInt8) : List (Nat × Nat) → Nat → Mem → Nat × Mem
  | [], total, m => (total, m)
  | (a, len) :: t, total, m => writeSlices bs t (total + len) (m.store a ((bs.drop total).take len))

/-- `Bytes::write_slice` on top of `get_slices` (vm-memory). Behind the calls at
src/loader/mod.rs:246, src/configurator/x86_64/linux.rs:108, src/configurator/x86_64/pvh.rs:163, 170,
176, src/configurator/fdt.rs:90. -/
def writeSliceIter (m : Mem) (bs : List UInt8) (a : GuestAddr) : Bool × Mem :=
  match stopOnError (getSlices m.regions (bs.length + 1) a.toNat bs.length) with
  | none => (false, m)
  | some l =>
    let r := writeSlices bs l 0 m
    (r.1 == bs.length, r.2)

end LinuxLoader
