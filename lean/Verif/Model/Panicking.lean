import Verif.Model.AnyReader
import Verif.Model.AnyMem

/-!
# Readers and guest memories that panic

The loaders are generic in the reader, and together with `load_cmdline` and the configurators in the guest
memory: both are code of the caller, and can panic. No code of the crate catches a panic, and no type of it
implements `Drop`: a panic unwinds through the crate to the caller. Who catches it there finds guest memory
with what was stored before.
-/

namespace LinuxLoader

/-- A request at which the reader panics: recorded as a request that gave no answer. Calls:
src/loader/elf/mod.rs:212-289 and 329-405, src/loader/bzimage/mod.rs:114-178, src/loader/pe/mod.rs:145-200
and 226-236. -/
def panickingAt {ε α : Type} (panics : List RdOp → RdOp → Bool) (o : RdOp) (x : LM AnyState ε α) :
    LM AnyState ε α := fun s =>
  if panics s.ops o then (.panic, s.add o .failed) else x s

/-- `read_exact_volatile_from` with a reader that may panic (vm-memory). The bytes stored before remain.
Calls: src/loader/elf/mod.rs:286, src/loader/bzimage/mod.rs:175, src/loader/pe/mod.rs:198, 234. -/
def panickingTransfer {ε : Type} (R : AnyReader) (panics : List RdOp → RdOp → Bool) (a n : Nat) (e : ε) :
    LM AnyState ε Unit := fun s =>
  if panics s.ops (.readIntoMem a n) then
    (.panic, ({ s with mem := s.mem.scatter a n (R.stored s.ops (.readIntoMem a n)) } : AnyState).add
      (.readIntoMem a n) .failed)
  else anyTransfer R a n e s

/-- The operations on a reader that behaves like `R`, but panics at the requests `panics` says. Calls:
src/loader/elf/mod.rs:212-289 and 329-405, src/loader/bzimage/mod.rs:114-178, src/loader/pe/mod.rs:145-200
and 226-236. -/
def panicIo (R : AnyReader) (panics : List RdOp → RdOp → Bool) : Io AnyState where
  seekStart := fun p e => panickingAt panics (.seekStart p) (anySeek R (.seekStart p) e)
  seekEnd := fun e => panickingAt panics .seekEnd (anySeekEnd R e)
  seekCur := fun d e => panickingAt panics (.seekCur d) (anySeek R (.seekCur d) e)
  readExact := fun n e => panickingAt panics (.readExact n) (anyRead R (.readExact n) n e)
  readVolatile := fun n e => panickingAt panics (.readVolatile n) (anyRead R (.readVolatile n) n e)
  readIntoMem := fun a n e => panickingTransfer R panics a n e

/-- A request at which guest memory panics. Calls: src/loader/mod.rs:241-247,
src/configurator/x86_64/linux.rs:104-109, src/configurator/x86_64/pvh.rs:158-177,
src/configurator/fdt.rs:84-91. -/
def memPanickingAt {ε α : Type} (panics : List MemReq → MemReq → Bool) (o : MemReq) (x : LM MemLog ε α) :
    LM MemLog ε α := fun l =>
  if panics (l.map Prod.fst) o then (.panic, l ++ [(o, .failed)]) else x l

/-- The operations on a guest memory that behaves like `M`, but panics at the requests `panics` says.
Calls: src/loader/mod.rs:241-247, src/configurator/x86_64/linux.rs:104-109,
src/configurator/x86_64/pvh.rs:158-177, src/configurator/fdt.rs:84-91. -/
def panicMemOps (M : AnyMem) (panics : List MemReq → MemReq → Bool) : MemOps MemLog where
  writeSlice := fun bytes a e => memPanickingAt panics (.writeSlice a bytes) (anyWriteSlice M bytes a e)
  checkedOffset := fun a n e => memPanickingAt panics (.checkedOffset a n) (anyCheckedOffset M a n e)
  checkLast := fun a => memPanickingAt panics .lastAddr (anyCheckLast M a)

end LinuxLoader
