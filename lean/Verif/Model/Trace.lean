import Verif.Model.IoLoaders
import Verif.Model.BootParams

/-!
# The loaders and configurators operation by operation, with the bytes they store

Guest memory is shared: `write_slice` and `read_exact_volatile_from` take `&self`, so while a loader or
configurator runs, other threads (another loader, a device, a vCPU) may store to the same memory. Here
the code runs with such an environment, which before every operation may replace the contents of guest
memory (not the regions, which are immutable), and every operation records the bytes it stores. That an
operation takes time itself — other accesses fall between the bytes it stores — is covered by
`Spec/Concurrent.lean`, where the recorded bytes of all threads are interleaved one by one.
-/

namespace LinuxLoader

/-- Bytes stored: address and value. No counterpart in the code: effects of the calls at
src/loader/mod.rs:246, src/configurator/x86_64/linux.rs:108, src/configurator/x86_64/pvh.rs:163, 170,
176, src/configurator/fdt.rs:90, src/loader/elf/mod.rs:286, src/loader/bzimage/mod.rs:175,
src/loader/pe/mod.rs:198, 234. -/
abbrev Writes := List (Nat × UInt8)

/-- What the environment does to the contents of guest memory before the operation with this number.
No counterpart in the code: other threads between the calls at src/loader/mod.rs:246,
src/configurator/x86_64/linux.rs:108, src/configurator/x86_64/pvh.rs:163, 170, 176,
src/configurator/fdt.rs:90, src/loader/elf/mod.rs:286, src/loader/bzimage/mod.rs:175,
src/loader/pe/mod.rs:198, 234. -/
abbrev Env := Nat → (Nat → UInt8) → Nat → UInt8

/-- State and record: one entry for every operation so far. No counterpart in the code: a record of
the calls at src/loader/mod.rs:246, src/configurator/x86_64/linux.rs:108,
src/configurator/x86_64/pvh.rs:163, 170, 176, src/configurator/fdt.rs:90, src/loader/elf/mod.rs:286,
src/loader/bzimage/mod.rs:175, src/loader/pe/mod.rs:198, 234. -/
structure TS (σ : Type) where
  st : σ
  log : List Writes

/-- States with a guest memory: the `guest_mem: &M` of src/loader/mod.rs:176-183 and 238-243, which the calls
below write to. No counterpart of its own in the code. -/
class MState (σ : Type) where
  data : σ → Nat → UInt8
  setData : (Nat → UInt8) → σ → σ

/-- The memory of `load_cmdline` and the configurators, src/loader/mod.rs:222-223,
src/configurator/mod.rs:124-126. -/
instance : MState Mem := ⟨Mem.data, fun f m => { m with data := f }⟩
/-- The memory of the loaders, src/loader/mod.rs:176-183. -/
instance : MState LS := ⟨fun s => s.mem.data, fun f s => { s with mem := { s.mem with data := f } }⟩

/-- One operation `x`, which stores `w`. A call at src/loader/mod.rs:246,
src/configurator/x86_64/linux.rs:108, src/configurator/x86_64/pvh.rs:163, 170, 176,
src/configurator/fdt.rs:90, src/loader/elf/mod.rs:286, src/loader/bzimage/mod.rs:175,
src/loader/pe/mod.rs:198, 234. -/
def traced {σ ε α : Type} [MState σ] (env : Env) (w : σ → Writes) (x : LM σ ε α) : LM (TS σ) ε α := fun t =>
  let s := MState.setData (env t.log.length (MState.data t.st)) t.st
  ((x s).1, ⟨(x s).2, t.log ++ [w s]⟩)

/-- `bs`, stored at `a`. Of the calls at src/loader/mod.rs:246, src/configurator/x86_64/linux.rs:108,
src/configurator/x86_64/pvh.rs:163, 170, 176, src/configurator/fdt.rs:90, src/loader/elf/mod.rs:286,
src/loader/bzimage/mod.rs:175, src/loader/pe/mod.rs:198, 234. -/
def storeWrites (a : Nat) : List UInt8 → Writes
  | [] => []
  | b :: bs => (a, b) :: storeWrites (a + 1) bs

/-- The new contents `w` at mapped addresses of the range (`Mem.scatter`). Of the calls at
src/loader/elf/mod.rs:286, src/loader/bzimage/mod.rs:175, src/loader/pe/mod.rs:198, 234. -/
def scatterWrites (m : Mem) (w : Nat → Option UInt8) (a : Nat) : Nat → Writes
  | 0 => []
  | n + 1 =>
    match m.mapped a, w a with
    | true, some b => (a, b) :: scatterWrites m w (a + 1) n
    | _, _ => scatterWrites m w (a + 1) n

/-- What `readIntoMem` stores. Calls: src/loader/elf/mod.rs:286, src/loader/bzimage/mod.rs:175,
src/loader/pe/mod.rs:198, 234. -/
def readWrites (a n : Nat) (s : LS) : Writes :=
  match scatterOf s with
  | some w => scatterWrites s.mem w a n
  | none => storeWrites a (s.rd.rest.take (min (s.mem.mappedPrefix a n) (ioLimit s n)))

/-- What `Bytes::write_slice` stores. Calls: src/loader/mod.rs:246,
src/configurator/x86_64/linux.rs:108, src/configurator/x86_64/pvh.rs:163, 170, 176,
src/configurator/fdt.rs:90. -/
def sliceWrites (bytes : List UInt8) (a : GuestAddr) (m : Mem) : Writes :=
  storeWrites a.toNat (bytes.take (m.mappedPrefix a.toNat bytes.length))

/-- The operations of `Model/Reader.lean`, with an environment and a record. Calls:
src/loader/elf/mod.rs:212-289 and 329-405, src/loader/bzimage/mod.rs:114-178,
src/loader/pe/mod.rs:145-200 and 226-236. -/
def tracedIo (env : Env) : Io (TS LS) where
  seekStart := fun p e => traced env (fun _ => []) (seekStart p e)
  seekEnd := fun e => traced env (fun _ => []) (seekEnd e)
  seekCur := fun d e => traced env (fun _ => []) (seekCur d e)
  readExact := fun n e => traced env (fun _ => []) (readExact n e)
  readVolatile := fun n e => traced env (fun _ => []) (readVolatile n e)
  readIntoMem := fun a n e => traced env (readWrites a n) (readIntoMem a n e)

/-- The memory operations of `load_cmdline` and the configurators. Calls: src/loader/mod.rs:241-247,
src/configurator/x86_64/linux.rs:104-109, src/configurator/x86_64/pvh.rs:158-177,
src/configurator/fdt.rs:84-91. -/
structure MemOps (σ : Type) where
  writeSlice : {ε : Type} → List UInt8 → GuestAddr → ε → LM σ ε Unit
  checkedOffset : {ε : Type} → GuestAddr → Nat → ε → LM σ ε GuestAddr
  checkLast : GuestAddr → LM σ CmdlineLoadError Unit

/-- The operations of `Model/LoadCmdline.lean`. Calls: src/loader/mod.rs:241-247,
src/configurator/x86_64/linux.rs:104-109, src/configurator/x86_64/pvh.rs:158-177,
src/configurator/fdt.rs:84-91. -/
def plainOps : MemOps Mem where
  writeSlice := writeSliceOr
  checkedOffset := checkedOffsetOr
  checkLast := checkLastAddr

/-- The same with an environment and a record. Calls: src/loader/mod.rs:241-247,
src/configurator/x86_64/linux.rs:104-109, src/configurator/x86_64/pvh.rs:158-177,
src/configurator/fdt.rs:84-91. -/
def tracedOps (env : Env) : MemOps (TS Mem) where
  writeSlice := fun bytes a e => traced env (sliceWrites bytes a) (writeSliceOr bytes a e)
  checkedOffset := fun a n e => traced env (fun _ => []) (checkedOffsetOr a n e)
  checkLast := fun a => traced env (fun _ => []) (checkLastAddr a)

section Generic
variable {σ : Type}

/-- `loadCmdline` over `ops`, src/loader/mod.rs:222-250. -/
def G.loadCmdline (ops : MemOps σ) (a : GuestAddr) (c : Cmdline) : LM σ CmdlineLoadError Unit := do
  let cs ← LM.ofRes (match c.asCString with
    | .ok b => .ok b
    | .err _ => .err .invalidCommandLine
    | .panic => .panic)
  let bytes := Cmdline.bytesWithNul cs
  let e ← LM.okOr (addrAddNat a (bytes.length - 1)) .commandLineOverflow
  ops.checkLast e
  ops.writeSlice bytes a .commandLineCopy

/-- `linuxWrite` over `ops`, src/configurator/x86_64/linux.rs:98-112. -/
def G.linuxWrite (ops : MemOps σ) (p : BootParams) : LM σ LinuxError Unit := do
  let _ ← ops.checkedOffset p.headerStart p.header.length .zeroPagePastRamEnd
  ops.writeSlice p.header p.headerStart .zeroPageSetup

/-- `fdtWrite` over `ops`, src/configurator/fdt.rs:80-92. -/
def G.fdtWrite (ops : MemOps σ) (p : BootParams) : LM σ FdtError Unit := do
  let _ ← ops.checkedOffset p.headerStart p.header.length .fdtPastRamEnd
  ops.writeSlice p.header p.headerStart .writeFdtToMemory

/-- `pvhWriteModules` over `ops`, src/configurator/x86_64/pvh.rs:172-177. -/
def G.pvhWriteModules (ops : MemOps σ) (p : BootParams) : LM σ PvhError Unit :=
  match p.modules with
  | none => pure ()
  | some modules => do
    let a ← LM.okOr p.modulesStart .modulesAddressMissing
    ops.writeSlice modules a .modulesSetup

/-- `pvhWrite` over `ops`, src/configurator/x86_64/pvh.rs:146-181. -/
def G.pvhWrite (ops : MemOps σ) (p : BootParams) : LM σ PvhError Unit := do
  let memmap ← LM.okOr p.sections .memmapTableMissing
  let memmapAddr ← LM.okOr p.sectionsStart .memmapTableAddressMissing
  let _ ← ops.checkedOffset memmapAddr memmap.length .memmapTablePastRamEnd
  ops.writeSlice memmap memmapAddr .memmapTableSetup
  let _ ← ops.checkedOffset p.headerStart p.header.length .startInfoPastRamEnd
  ops.writeSlice p.header p.headerStart .startInfoSetup
  G.pvhWriteModules ops p

end Generic
end LinuxLoader
