import Verif.Model.RegionWalk
import Verif.Model.Reader

/-!
# Image readers, one system call at a time

`Model/Reader.lean` describes an I/O operation by its outcome. Here are the loops of std and vm-memory
(dependencies, not part of `/repo`) that implement these operations on top of single calls of `read` and
`seek`. A single read may deliver any positive number of bytes (0 only at the end of the file or for an
empty buffer), be interrupted (`ErrorKind::Interrupted`), or fail; the sequence of these events is
arbitrary. `C70` proves that the operations of `Model/Reader.lean` are what comes out.
-/

namespace LinuxLoader

/-- What happens at one call of `read` or `seek`. Of the `F` of src/loader/mod.rs:176-183, in the
calls at src/loader/elf/mod.rs:212-289 and 329-405, src/loader/bzimage/mod.rs:114-178,
src/loader/pe/mod.rs:145-200 and 226-236. -/
inductive RawEvent where
  /-- a seek works; a read delivers at most `k + 1` bytes -/
  | give (k : Nat)
  /-- `ErrorKind::Interrupted` -/
  | intr
  /-- another error -/
  | fail

/-- State of a loader: reader and guest memory. `hung` is set if a loop runs out of fuel, that is, if
it is interrupted more often than the bound allows. The arguments of src/loader/mod.rs:176-183. -/
structure RawLS where
  data : List UInt8
  pos : Nat
  raw : Nat → RawEvent
  clock : Nat
  hung : Bool
  mem : Mem

/-- The implementation: a bound for the number of calls in one loop, and whether memory is accessed
with `get_slices` (`try_access` otherwise). Behind the calls at src/loader/elf/mod.rs:286,
src/loader/bzimage/mod.rs:175, src/loader/pe/mod.rs:198, 234. -/
structure RawCfg where
  fuel : Nat
  slices : Bool

namespace RawLS

/-- Bytes left. Of the `F` of src/loader/mod.rs:176-183. -/
def rest (s : RawLS) : List UInt8 := s.data.drop s.pos

/-- After one call, at position `p`. Of the `F` of src/loader/mod.rs:176-183. -/
def tick (s : RawLS) (p : Nat) : RawLS := { s with pos := p, clock := s.clock + 1 }

end RawLS

/-- `retry_eintr!(src.read_volatile(buf))` (vm-memory) with a buffer of `n` bytes: the bytes read,
`none` for an error. Behind the calls at src/loader/elf/mod.rs:286, src/loader/bzimage/mod.rs:175,
src/loader/pe/mod.rs:198, 234. -/
def rawReadRetry (n : Nat) : Nat → RawLS → Option (List UInt8) × RawLS
  | 0, s => (none, { s with hung := true })
  | fuel + 1, s =>
    match s.raw s.clock with
    | .give k => (some (s.rest.take (min (k + 1) n)), s.tick (s.pos + (s.rest.take (min (k + 1) n)).length))
    | .intr => rawReadRetry n fuel (s.tick s.pos)
    | .fail => (none, s.tick s.pos)

/-- `std::io::default_read_exact` (std) with a buffer of which `n` bytes are not yet filled, `acc`
being the filled part. Behind the calls at src/loader/elf/mod.rs:216, 248, 341, 348, 405,
src/loader/pe/mod.rs:157. -/
def rawReadExact : Nat → Nat → List UInt8 → RawLS → Option (List UInt8) × RawLS
  | _, 0, acc, s => (some acc, s)
  | 0, _ + 1, _, s => (none, { s with hung := true })
  | fuel + 1, n + 1, acc, s =>
    match s.raw s.clock with
    | .give k =>
      let got := s.rest.take (min (k + 1) (n + 1))
      let s' := s.tick (s.pos + got.length)
      if got = [] then (none, s') else rawReadExact fuel (n + 1 - got.length) (acc ++ got) s'
    | .intr => rawReadExact fuel (n + 1) acc (s.tick s.pos)
    | .fail => (none, s.tick s.pos)

/-- The callback of `Bytes::read_volatile_from` on `try_access` (vm-memory): one (retried) read into
the region. Behind the calls at src/loader/elf/mod.rs:286, src/loader/bzimage/mod.rs:175,
src/loader/pe/mod.rs:198, 234. -/
def rawRegionRead (fuel : Nat) (_total len cur : Nat) (s : RawLS) : Option Nat × RawLS :=
  match rawReadRetry len fuel s with
  | (some got, s') => (some got.length, { s' with mem := s'.mem.store cur got })
  | (none, s') => (none, s')

/-- The `try_fold` of `Bytes::read_volatile_from` on `get_slices` (vm-memory): one (retried) read into
every slice. Behind the calls at src/loader/elf/mod.rs:286, src/loader/bzimage/mod.rs:175,
src/loader/pe/mod.rs:198, 234. -/
def rawReadSlices (fuel : Nat) : List (Nat × Nat) → Nat → RawLS → Option Nat × RawLS
  | [], total, s => (some total, s)
  | (a, len) :: t, total, s =>
    match rawReadRetry len fuel s with
    | (some got, s') =>
      rawReadSlices fuel t (total + got.length) { s' with mem := s'.mem.store a got }
    | (none, s') => (none, s')

/-- `Bytes::read_volatile_from(a, reader, n)` (vm-memory): number of bytes. Behind the calls at
src/loader/elf/mod.rs:286, src/loader/bzimage/mod.rs:175, src/loader/pe/mod.rs:198, 234. -/
def rawReadFrom (cfg : RawCfg) (a n : Nat) (s : RawLS) : Option Nat × RawLS :=
  if cfg.slices then
    match stopOnError (getSlices s.mem.regions (n + 1) a n) with
    | none => (none, s)
    | some l => rawReadSlices cfg.fuel l 0 s
  else tryAccess s.mem.regions n (rawRegionRead cfg.fuel) (n + 1) a 0 s

/-- The I/O operations a loader uses. Calls: src/loader/elf/mod.rs:212-289 and 329-405,
src/loader/bzimage/mod.rs:114-178, src/loader/pe/mod.rs:145-200 and 226-236. -/
structure Io (σ : Type) where
  seekStart : {ε : Type} → Nat → ε → LM σ ε Unit
  seekEnd : {ε : Type} → ε → LM σ ε Nat
  seekCur : {ε : Type} → Int → ε → LM σ ε Unit
  readExact : {ε : Type} → Nat → ε → LM σ ε (List UInt8)
  readVolatile : {ε : Type} → Nat → ε → LM σ ε (List UInt8)
  readIntoMem : {ε : Type} → Nat → Nat → ε → LM σ ε Unit

/-- The operations of `Model/Reader.lean`. Calls: src/loader/elf/mod.rs:212-289 and 329-405,
src/loader/bzimage/mod.rs:114-178, src/loader/pe/mod.rs:145-200 and 226-236. -/
def contractIo : Io LS where
  seekStart := LinuxLoader.seekStart
  seekEnd := LinuxLoader.seekEnd
  seekCur := LinuxLoader.seekCur
  readExact := LinuxLoader.readExact
  readVolatile := LinuxLoader.readVolatile
  readIntoMem := LinuxLoader.readIntoMem

/-- A single call of `seek` (std): works unless the event is an interruption or an error. Calls:
src/loader/elf/mod.rs:212, 241, 273, 330, 376, src/loader/bzimage/mod.rs:118, 172,
src/loader/pe/mod.rs:154, 196, 232. -/
def rawSeek {ε : Type} (p : Option Nat) (e : ε) : LM RawLS ε Unit := fun s =>
  match s.raw s.clock, p with
  | .give _, some p => (.ok (), s.tick p)
  | _, _ => (.err e, s.tick s.pos)

/-- The operations in terms of single calls. Calls: src/loader/elf/mod.rs:212-289 and 329-405,
src/loader/bzimage/mod.rs:114-178, src/loader/pe/mod.rs:145-200 and 226-236. -/
def rawIo (cfg : RawCfg) : Io RawLS where
  seekStart := fun p e => rawSeek (some p) e
  seekEnd := fun e s => (rawSeek (some s.data.length) e >>= fun _ => pure s.data.length) s
  seekCur := fun d e s =>
    rawSeek (if (s.pos : Int) + d < 0 then none else some ((s.pos : Int) + d).toNat) e s
  readExact := fun n e s =>
    match rawReadExact cfg.fuel n [] s with
    | (some b, s') => (.ok b, s')
    | (none, s') => (.err e, s')
  readVolatile := fun n e s =>
    match s.raw s.clock with
    | .give k =>
      let got := s.rest.take (min (k + 1) n)
      (.ok (got ++ List.replicate (n - got.length) 0), s.tick (s.pos + got.length))
    | _ => (.err e, s.tick s.pos)
  readIntoMem := fun a n e s =>
    let r := rawReadFrom cfg a n s
    (if r.1 = some n then .ok () else .err e, r.2)

end LinuxLoader
