import Verif.Model.IoLoaders

/-!
# Readers that may do anything

The loaders are generic in `F: Read + ReadVolatile + Seek`. `Model/Reader.lean` has readers on a file that
does not change while it is loaded. Here the reader answers every request as it likes: the file may be
changed by someone else between two requests, or be a device, or `F` may be a hostile implementation of
the traits. What the language and vm-memory still guarantee: `read_exact` into a buffer leaves *some*
bytes in it; a transfer into guest memory changes at most mapped bytes of the range, and succeeds only if
the whole range can be accessed — the latter because `ReadVolatile::read_volatile` reports at most the
length of the buffer it was given (a documented requirement, and the only one made here); a size is an
`u64`.
-/

namespace LinuxLoader

/-- A request to the reader. The requests made at src/loader/elf/mod.rs:212-289 and 329-405,
src/loader/bzimage/mod.rs:114-178, src/loader/pe/mod.rs:145-200 and 226-236. -/
inductive RdOp where
  | seekStart (p : Nat)
  | seekEnd
  | seekCur (d : Int)
  | readExact (n : Nat)
  | readVolatile (n : Nat)
  | readIntoMem (a n : Nat)
deriving DecidableEq

/-- Its answer. To the calls at src/loader/elf/mod.rs:212-289 and 329-405,
src/loader/bzimage/mod.rs:114-178, src/loader/pe/mod.rs:145-200 and 226-236. -/
inductive Answer where
  /-- an error (of the reader, or of vm-memory for a transfer) -/
  | failed
  /-- a successful seek or transfer -/
  | done
  /-- the size of the file -/
  | size (n : Nat)
  /-- the bytes in the buffer -/
  | bytes (b : List UInt8)
deriving DecidableEq

/-- A reader: how it reacts, given the requests so far. The `F: Read + ReadVolatile + Seek` of
src/loader/mod.rs:176-183, src/loader/pe/mod.rs:218-224. -/
structure AnyReader where
  /-- an error -/
  fails : List RdOp → RdOp → Bool
  /-- the answer to `SeekFrom::End(0)` -/
  size : List RdOp → UInt64
  /-- the contents of the buffer of a request -/
  byte : List RdOp → RdOp → Nat → UInt8
  /-- what a transfer stores at an address -/
  stored : List RdOp → RdOp → Nat → Option UInt8

/-- Guest memory, and the requests so far with their answers. No counterpart in the code: a record of
the calls at src/loader/elf/mod.rs:212-289 and 329-405, src/loader/bzimage/mod.rs:114-178,
src/loader/pe/mod.rs:145-200 and 226-236. -/
structure AnyState where
  mem : Mem
  log : List (RdOp × Answer)

/-- The requests so far. No counterpart in the code (record of src/loader/elf/mod.rs:212-289 and
329-405, src/loader/bzimage/mod.rs:114-178, src/loader/pe/mod.rs:145-200 and 226-236). -/
def AnyState.ops (s : AnyState) : List RdOp := s.log.map Prod.fst

/-- One more request and answer. No counterpart in the code (record of src/loader/elf/mod.rs:212-289
and 329-405, src/loader/bzimage/mod.rs:114-178, src/loader/pe/mod.rs:145-200 and 226-236). -/
def AnyState.add (s : AnyState) (o : RdOp) (a : Answer) : AnyState := { s with log := s.log ++ [(o, a)] }

/-- A seek, `Seek::seek` with `map_err(|_| e)?` (std). Calls: src/loader/elf/mod.rs:212, 241, 273,
330, 376, src/loader/bzimage/mod.rs:118, 172, src/loader/pe/mod.rs:154, 196, 232. -/
def anySeek {ε : Type} (R : AnyReader) (o : RdOp) (e : ε) : LM AnyState ε Unit := fun s =>
  if R.fails s.ops o then (.err e, s.add o .failed) else (.ok (), s.add o .done)

/-- `Seek::seek(SeekFrom::End(0))` (std). Calls: src/loader/bzimage/mod.rs:115,
src/loader/pe/mod.rs:146, 227. -/
def anySeekEnd {ε : Type} (R : AnyReader) (e : ε) : LM AnyState ε Nat := fun s =>
  if R.fails s.ops .seekEnd then (.err e, s.add .seekEnd .failed)
  else (.ok (R.size s.ops).toNat, s.add .seekEnd (.size (R.size s.ops).toNat))

/-- `Read::read_exact` (std) and `ReadVolatile::read_volatile` (vm-memory) into a buffer of `n` bytes.
Calls: src/loader/elf/mod.rs:216, 248, 341, 348, 405, src/loader/pe/mod.rs:157,
src/loader/bzimage/mod.rs:123. -/
def anyRead {ε : Type} (R : AnyReader) (o : RdOp) (n : Nat) (e : ε) : LM AnyState ε (List UInt8) := fun s =>
  if R.fails s.ops o then (.err e, s.add o .failed)
  else (.ok ((List.range n).map (R.byte s.ops o)), s.add o (.bytes ((List.range n).map (R.byte s.ops o))))

/-- `Bytes::read_exact_volatile_from(a, reader, n)` (vm-memory). Calls: src/loader/elf/mod.rs:286,
src/loader/bzimage/mod.rs:175, src/loader/pe/mod.rs:198, 234. -/
def anyTransfer {ε : Type} (R : AnyReader) (a n : Nat) (e : ε) : LM AnyState ε Unit := fun s =>
  let s' : AnyState := { s with mem := s.mem.scatter a n (R.stored s.ops (.readIntoMem a n)) }
  if R.fails s.ops (.readIntoMem a n) = false ∧ s.mem.canAccess a n then
    (.ok (), s'.add (.readIntoMem a n) .done)
  else (.err e, s'.add (.readIntoMem a n) .failed)

/-- The operations of the loaders on such a reader. Calls: src/loader/elf/mod.rs:212-289 and 329-405,
src/loader/bzimage/mod.rs:114-178, src/loader/pe/mod.rs:145-200 and 226-236. -/
def anyIo (R : AnyReader) : Io AnyState where
  seekStart := fun p e => anySeek R (.seekStart p) e
  seekEnd := fun e => anySeekEnd R e
  seekCur := fun d e => anySeek R (.seekCur d) e
  readExact := fun n e => anyRead R (.readExact n) n e
  readVolatile := fun n e => anyRead R (.readVolatile n) n e
  readIntoMem := fun a n e => anyTransfer R a n e

end LinuxLoader
