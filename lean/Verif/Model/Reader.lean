import Verif.Model.GuestMem
import Verif.Model.Bytes

/-!
# Image readers

The loaders are generic in `F: Read + ReadVolatile + Seek` (std / vm-memory traits). A reader is
modelled as a byte string with a position — the behaviour of `std::io::Cursor` and of a regular
file — plus a schedule that says for every I/O operation, in order, whether it works, fails (after
having transferred some bytes) or delivers fewer bytes than it could (a *short read*). The schedule
is arbitrary, so a theorem for all readers covers every placement of I/O errors and short reads.

`read_exact` (std) repeats short reads until the buffer is full or the end of file is reached, so there
short reads do not matter. `read_exact_volatile_from` of vm-memory either does the same
(`try_access`), or reads once into every memory region of the target range (`get_slices`); then a short
read makes the operation fail, and regions behind the first may have received bytes at the wrong
address: event `scatter`. `Model/RawIo.lean` has these loops step by step; C70 proves that each of
their runs is one of the events here.
-/

namespace LinuxLoader

/-- What happens at one I/O operation. In the calls at src/loader/elf/mod.rs:212-289 and 329-405,
src/loader/bzimage/mod.rs:114-178, src/loader/pe/mod.rs:145-200 and 226-236. -/
inductive IoEvent where
  /-- works, transferring as much as possible -/
  | ok
  /-- an I/O error, for memory transfers after at most this many bytes -/
  | fail (k : Nat)
  /-- a single read delivers at most this many bytes -/
  | short (k : Nat)
  /-- the operation fails; if it is a memory transfer, any mapped addresses of the target range may
  have got new contents (`w x = some b`) -/
  | scatter (w : Nat → Option UInt8)

/-- An image reader. The `F: Read + ReadVolatile + Seek` of src/loader/mod.rs:176-183,
src/loader/pe/mod.rs:218-224. -/
structure Reader where
  data : List UInt8
  pos : Nat
  sched : Nat → IoEvent
  clock : Nat

/-- State of a loader: the reader and guest memory. The arguments of src/loader/mod.rs:176-183. -/
structure LS where
  rd : Reader
  mem : Mem

namespace Reader

/-- A reader without faults on a byte string, at position 0 (`std::io::Cursor::new`). As in the tests,
e.g. src/loader/elf/mod.rs:480. -/
def cursor (data : List UInt8) : Reader := ⟨data, 0, fun _ => .ok, 0⟩

/-- The reader after an operation, at position `p`. Behind the calls at src/loader/elf/mod.rs:212-289
and 329-405, src/loader/bzimage/mod.rs:114-178, src/loader/pe/mod.rs:145-200 and 226-236. -/
def tick (r : Reader) (p : Nat) : Reader := { r with pos := p, clock := r.clock + 1 }

/-- Bytes left. Behind the calls at src/loader/elf/mod.rs:212-289 and 329-405,
src/loader/bzimage/mod.rs:114-178, src/loader/pe/mod.rs:145-200 and 226-236. -/
def rest (r : Reader) : List UInt8 := r.data.drop r.pos

end Reader

/-- The operation fails. Of the calls at src/loader/elf/mod.rs:212-289 and 329-405,
src/loader/bzimage/mod.rs:114-178, src/loader/pe/mod.rs:145-200 and 226-236. -/
def ioFails (s : LS) : Bool :=
  match s.rd.sched s.rd.clock with
  | .fail _ => true
  | .scatter _ => true
  | _ => false

/-- `Seek::seek(SeekFrom::Start(p))` / `Seek::rewind` with `map_err(|_| e)?` (std). Seeking beyond the
end is allowed. Calls: src/loader/elf/mod.rs:212, 241, 273, 330, 376, src/loader/bzimage/mod.rs:118,
172, src/loader/pe/mod.rs:154, 196, 232. -/
def seekStart {ε : Type} (p : Nat) (e : ε) : LM LS ε Unit := fun s =>
  if ioFails s then (.err e, { s with rd := s.rd.tick s.rd.pos })
  else (.ok (), { s with rd := s.rd.tick p })

/-- `Seek::seek(SeekFrom::End(0))` with `map_err(|_| e)?` (std): the size. Calls:
src/loader/bzimage/mod.rs:115, src/loader/pe/mod.rs:146, 227. -/
def seekEnd {ε : Type} (e : ε) : LM LS ε Nat := fun s =>
  if ioFails s then (.err e, { s with rd := s.rd.tick s.rd.pos })
  else (.ok s.rd.data.length, { s with rd := s.rd.tick s.rd.data.length })

/-- `Seek::seek(SeekFrom::Current(d))` with `map_err(|_| e)?` (std): error for a negative position.
Call: src/loader/elf/mod.rs:389. -/
def seekCur {ε : Type} (d : Int) (e : ε) : LM LS ε Unit := fun s =>
  if ioFails s ∨ (s.rd.pos : Int) + d < 0 then (.err e, { s with rd := s.rd.tick s.rd.pos })
  else (.ok (), { s with rd := s.rd.tick ((s.rd.pos : Int) + d).toNat })

/-- `Read::read_exact` into a buffer of `n` bytes with `map_err(|_| e)?` (std). After an error the
position and the buffer are unspecified; the loaders do not use them any more. Calls:
src/loader/elf/mod.rs:216, 248, 341, 348, 405, src/loader/pe/mod.rs:157. -/
def readExact {ε : Type} (n : Nat) (e : ε) : LM LS ε (List UInt8) := fun s =>
  if ioFails s ∨ s.rd.rest.length < n then (.err e, { s with rd := s.rd.tick s.rd.pos })
  else (.ok (s.rd.rest.take n), { s with rd := s.rd.tick (s.rd.pos + n) })

/-- One `ReadVolatile::read_volatile` into a zeroed buffer of `n` bytes with `map_err(|_| e)?`
(vm-memory): the buffer afterwards. The number of bytes read is not part of the result, as the only
caller ignores it (src/loader/bzimage/mod.rs:122-124). -/
def readVolatile {ε : Type} (n : Nat) (e : ε) : LM LS ε (List UInt8) := fun s =>
  match s.rd.sched s.rd.clock with
  | .fail _ => (.err e, { s with rd := s.rd.tick s.rd.pos })
  | .scatter _ => (.err e, { s with rd := s.rd.tick s.rd.pos })
  | .short k =>
    let got := s.rd.rest.take (min k n)
    (.ok (got ++ List.replicate (n - got.length) 0), { s with rd := s.rd.tick (s.rd.pos + got.length) })
  | .ok =>
    let got := s.rd.rest.take n
    (.ok (got ++ List.replicate (n - got.length) 0), { s with rd := s.rd.tick (s.rd.pos + got.length) })

/-- At most how many bytes a memory transfer moves before an I/O error. Of the calls at
src/loader/elf/mod.rs:286, src/loader/bzimage/mod.rs:175, src/loader/pe/mod.rs:198, 234. -/
def ioLimit (s : LS) (n : Nat) : Nat :=
  match s.rd.sched s.rd.clock with
  | .fail k => min k n
  | _ => n

/-- The contents scattered by a failing memory transfer, if the event is of this kind. Of the calls at
src/loader/elf/mod.rs:286, src/loader/bzimage/mod.rs:175, src/loader/pe/mod.rs:198, 234. -/
def scatterOf (s : LS) : Option (Nat → Option UInt8) :=
  match s.rd.sched s.rd.clock with
  | .scatter w => some w
  | _ => none

/-- Memory with the new contents `w` at mapped addresses of the range. Of the calls at
src/loader/elf/mod.rs:286, src/loader/bzimage/mod.rs:175, src/loader/pe/mod.rs:198, 234. -/
def Mem.scatter (m : Mem) (a n : Nat) (w : Nat → Option UInt8) : Mem :=
  { m with data := fun x =>
      if a ≤ x ∧ x < a + n ∧ m.mapped x = true then (w x).getD (m.data x) else m.data x }

/-- The usual behaviour of `Bytes::read_exact_volatile_from(a, reader, n)`: bytes are transferred up
to the first unmapped address, the end of file or an I/O error; `Ok` iff all `n` bytes were
transferred and there was no I/O error. Calls: src/loader/elf/mod.rs:286,
src/loader/bzimage/mod.rs:175, src/loader/pe/mod.rs:198, 234. -/
def readPrefix {ε : Type} (a n : Nat) (e : ε) : LM LS ε Unit := fun s =>
  let got := s.rd.rest.take (min (s.mem.mappedPrefix a n) (ioLimit s n))
  let s' : LS := ⟨s.rd.tick (s.rd.pos + got.length), s.mem.store a got⟩
  if got.length = n ∧ ioFails s = false ∧ s.mem.canAccess a n then (.ok (), s') else (.err e, s')

/-- `Bytes::read_exact_volatile_from(a, reader, n)` with `map_err(|_| e)?` (vm-memory). Calls:
src/loader/elf/mod.rs:286, src/loader/bzimage/mod.rs:175, src/loader/pe/mod.rs:198, 234. -/
def readIntoMem {ε : Type} (a n : Nat) (e : ε) : LM LS ε Unit := fun s =>
  match scatterOf s with
  | some w => (.err e, ⟨s.rd.tick s.rd.pos, s.mem.scatter a n w⟩)
  | none => readPrefix a n e s

end LinuxLoader
