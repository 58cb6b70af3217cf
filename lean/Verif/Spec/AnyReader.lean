import Verif.Model.AnyReader
import Verif.Spec.Images

/-!
# Specification vocabulary: what a reader delivered

Read off the record of requests and answers.
-/

namespace LinuxLoader.Spec

/-- The buffers of `n` bytes filled by `read_exact`. -/
def delivered (n : Nat) (log : List (RdOp × Answer)) : List (List UInt8) :=
  log.filterMap fun
    | (.readExact k, .bytes b) => if k = n then some b else none
    | _ => none

/-- The buffers of `n` bytes filled by `read_volatile`. -/
def deliveredVolatile (n : Nat) (log : List (RdOp × Answer)) : List (List UInt8) :=
  log.filterMap fun
    | (.readVolatile k, .bytes b) => if k = n then some b else none
    | _ => none

/-- The file sizes reported. -/
def deliveredSizes (log : List (RdOp × Answer)) : List Nat :=
  log.filterMap fun
    | (.seekEnd, .size n) => some n
    | _ => none

/-- The program headers delivered: buffers of 56 bytes. -/
def deliveredPhdrs (log : List (RdOp × Answer)) : List Phdr := (delivered 56 log).map Phdr.ofBytes

/-- Nothing is delivered beyond `i64::MAX`: the seek fails, as `lseek` does, or the next read does, as
`Cursor` does. -/
def FileLike (R : AnyReader) : Prop := ∀ ops p n, 0x8000000000000000 ≤ p → 0 < n →
  R.fails ops (.seekStart p) = true ∨ R.fails (ops ++ [.seekStart p]) (.readExact n) = true

/-- The last note header delivered is that of a Xen PVH note, followed by its name and the entry point
`v`. -/
def PvhDelivered (log : List (RdOp × Answer)) (v : Nat) : Prop :=
  ∃ before before' note d,
    delivered 12 log = before ++ [note] ∧ leField note 8 4 = 18 ∧ leField note 0 4 = 4 ∧
    4 ≤ leField note 4 4 ∧
    delivered 4 log = before' ++ [[0x58, 0x65, 0x6e, 0x00], d] ∧ v = leNat d

/-- What `Elf::load` checks before it writes: `eh` is the ELF header. -/
def ElfChecked (koff highmem : Option GuestAddr) (eh : List UInt8) : Prop :=
  ElfHeaderOk eh ∧ (∀ q, highmem = some q → q.toNat ≤ elfEntry eh) ∧ koffBase koff + elfEntry eh < U64

/-- At most how many requests a program header costs: a seek and a transfer for a loadable segment; for
notes a seek, three requests per 12 bytes, and a seek and a read for the entry point. -/
def phdrRequests (koff : Option GuestAddr) (h : Phdr) : Nat :=
  if h.Loadable then 2
  else if h.IsNote ∧ koff = none then 3 + 3 * ((h.filesz + 11) / 12)
  else 0

/-- A setup header as part of an image. -/
def bzWithHeader (h : List UInt8) : List UInt8 := List.replicate 0x1f1 0 ++ h

/-- What `BzImage::load` checks before it writes. -/
def BzChecked (highmem : Option GuestAddr) (size : Nat) (img : List UInt8) : Prop :=
  BzMagicOk img ∧ 0x200 ≤ bzVersion img ∧ bzLoadflags img % 2 = 1 ∧ bzSetupBytes img ≤ size ∧
  (∀ q, highmem = some q → q.toNat ≤ bzCode32 img)

/-- What `PE::load` checks before it writes. -/
def PeChecked (arch : PeArch) (koff : Option GuestAddr) (h : List UInt8) : Prop :=
  PeMagicOk arch h ∧ (∀ k, koff = some k → k.toNat % 0x200000 = 0) ∧ peAddress arch h koff < U64

end LinuxLoader.Spec
