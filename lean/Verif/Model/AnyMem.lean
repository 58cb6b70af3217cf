import Verif.Model.Trace

/-!
# Guest memory that may do anything

`load_cmdline` and `write_bootparams` are generic in `M: GuestMemoryBackend`. Here the implementation of
the three operations they use is arbitrary: it answers every request as it likes, given the requests so
far.
-/

namespace LinuxLoader

/-- A request to guest memory. The requests made at src/loader/mod.rs:241-247,
src/configurator/x86_64/linux.rs:104-109, src/configurator/x86_64/pvh.rs:158-177,
src/configurator/fdt.rs:84-91. -/
inductive MemReq where
  | checkedOffset (base : GuestAddr) (n : Nat)
  | lastAddr
  | writeSlice (a : GuestAddr) (bytes : List UInt8)
deriving DecidableEq

/-- Its answer. Its answer (to the calls at src/loader/mod.rs:241-247,
src/configurator/x86_64/linux.rs:104-109, src/configurator/x86_64/pvh.rs:158-177,
src/configurator/fdt.rs:84-91). -/
inductive MemAnswer where
  /-- `Err(..)`, or `None` -/
  | failed
  /-- `Ok(())` -/
  | done
  /-- an address -/
  | addr (a : GuestAddr)
deriving DecidableEq

/-- An implementation: how it reacts, given the requests so far. The `M: GuestMemoryBackend` of
src/loader/mod.rs:222-223, src/configurator/mod.rs:124-126. -/
structure AnyMem where
  writes : List MemReq → GuestAddr → List UInt8 → Bool
  offset : List MemReq → GuestAddr → Nat → Option GuestAddr
  last : List MemReq → GuestAddr

/-- The requests so far with their answers. No counterpart in the code: a record of the calls at
src/loader/mod.rs:241-247, src/configurator/x86_64/linux.rs:104-109,
src/configurator/x86_64/pvh.rs:158-177, src/configurator/fdt.rs:84-91. -/
abbrev MemLog := List (MemReq × MemAnswer)

/-- `write_slice(bytes, addr).map_err(|_| e)?` (vm-memory). Calls: src/loader/mod.rs:246,
src/configurator/x86_64/linux.rs:108, src/configurator/x86_64/pvh.rs:163, 170, 176,
src/configurator/fdt.rs:90. -/
def anyWriteSlice {ε : Type} (M : AnyMem) (bytes : List UInt8) (a : GuestAddr) (e : ε) : LM MemLog ε Unit := fun l =>
  if M.writes (l.map Prod.fst) a bytes then (.ok (), l ++ [(.writeSlice a bytes, .done)])
  else (.err e, l ++ [(.writeSlice a bytes, .failed)])

/-- `checked_offset(base, n).ok_or(e)?` (vm-memory). Calls: src/configurator/x86_64/linux.rs:105,
src/configurator/x86_64/pvh.rs:160, 167, src/configurator/fdt.rs:85. -/
def anyCheckedOffset {ε : Type} (M : AnyMem) (base : GuestAddr) (n : Nat) (e : ε) : LM MemLog ε GuestAddr := fun l =>
  match M.offset (l.map Prod.fst) base n with
  | some a => (.ok a, l ++ [(.checkedOffset base n, .addr a)])
  | none => (.err e, l ++ [(.checkedOffset base n, .failed)])

/-- `if end > guest_mem.last_addr() { return Err(CommandLineOverflow) }`, src/loader/mod.rs:240-242. -/
def anyCheckLast (M : AnyMem) (e : GuestAddr) : LM MemLog CmdlineLoadError Unit := fun l =>
  (if e > M.last (l.map Prod.fst) then .err .commandLineOverflow else .ok (),
   l ++ [(.lastAddr, .addr (M.last (l.map Prod.fst)))])

/-- The operations of `load_cmdline` and the configurators on such a memory. Calls:
src/loader/mod.rs:241-247, src/configurator/x86_64/linux.rs:104-109,
src/configurator/x86_64/pvh.rs:158-177, src/configurator/fdt.rs:84-91. -/
def anyMemOps (M : AnyMem) : MemOps MemLog where
  writeSlice := fun bytes a e => anyWriteSlice M bytes a e
  checkedOffset := fun a n e => anyCheckedOffset M a n e
  checkLast := fun a => anyCheckLast M a

end LinuxLoader
