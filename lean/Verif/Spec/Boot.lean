import Verif.Model.LoadCmdline
import Verif.Spec.Images
import Verif.Spec.Cmdline

/-!
# Specification vocabulary for the sequence of calls with which a VMM prepares a guest

A VMM calls some of the loaders and configurators, in some order, on the same guest memory, puts other things
there itself, and stops at the first error. Every call has its own reader.
-/

namespace LinuxLoader.Spec

/-- One call. -/
inductive BootStep where
  /-- `Elf::load` -/
  | elf (rd : Reader) (koff highmem : Option GuestAddr)
  /-- `BzImage::load` -/
  | bz (rd : Reader) (koff highmem : Option GuestAddr)
  /-- `PE::load` -/
  | pe (arch : PeArch) (rd : Reader) (koff highmem : Option GuestAddr)
  /-- `load_dtb` -/
  | dtb (rd : Reader) (a : GuestAddr)
  /-- `load_cmdline` -/
  | cmdline (a : GuestAddr) (c : Cmdline)
  /-- `LinuxBootConfigurator::write_bootparams` -/
  | linux (p : BootParams)
  /-- `FdtBootConfigurator::write_bootparams` -/
  | fdt (p : BootParams)
  /-- `PvhBootConfigurator::write_bootparams` -/
  | pvh (p : BootParams)
  /-- The VMM itself puts bytes into guest memory with `write_slice` of vm-memory: an initial ramdisk, the
  contents of PVH modules, ACPI tables, page tables, ... -/
  | own (a : GuestAddr) (bytes : List UInt8)

/-- Whether the call succeeds, and guest memory afterwards. -/
def BootStep.exec (m : Mem) : BootStep → Bool × Mem
  | .elf rd k h => let (r, s) := elfLoad k h ⟨rd, m⟩; (r.isOk, s.mem)
  | .bz rd k h => let (r, s) := bzLoad k h ⟨rd, m⟩; (r.isOk, s.mem)
  | .pe arch rd k h => let (r, s) := peLoad arch k h ⟨rd, m⟩; (r.isOk, s.mem)
  | .dtb rd a => let (r, s) := loadDtb a ⟨rd, m⟩; (r.isOk, s.mem)
  | .cmdline a c => let (r, m') := loadCmdline a c m; (r.isOk, m')
  | .linux p => let (r, m') := linuxWrite p m; (r.isOk, m')
  | .fdt p => let (r, m') := fdtWrite p m; (r.isOk, m')
  | .pvh p => let (r, m') := pvhWrite p m; (r.isOk, m')
  | .own a bytes => let (r, m') := writeSliceOr bytes a () m; (r.isOk, m')

/-- What the call is meant to put into guest memory (address and bytes of each piece, later pieces on
top of earlier ones). -/
def BootStep.pieces : BootStep → List (Nat × List UInt8)
  | .elf rd k _ => elfPieces rd.data k
  | .bz rd k _ => [(bzAddress rd.data k, bzKernel rd.data)]
  | .pe arch rd k _ => [(peAddress arch rd.data k, rd.data)]
  | .dtb rd a => [(a.toNat, rd.data)]
  | .cmdline a c => [(a.toNat, (text c.bootArgs c.initArgs).utf8 ++ [0])]
  | .linux p => [(p.headerStart.toNat, p.header)]
  | .fdt p => [(p.headerStart.toNat, p.header)]
  | .pvh p => pvhPieces p
  | .own a bytes => [(a.toNat, bytes)]

/-- ELF images are smaller than `isize::MAX`; the header of a bzImage without `kernel_offset` is read
in one piece (otherwise see C57). -/
def BootStep.Admissible : BootStep → Prop
  | .elf rd _ _ => rd.data.length < ISZ
  | .bz rd k _ => (∀ i n, rd.sched i ≠ .short n) ∨ k ≠ none
  | _ => True

/-- The calls in order, up to the first failure: the calls that succeeded, whether all did, and guest
memory at the end. -/
def bootRun : List BootStep → Mem → List BootStep × Bool × Mem
  | [], m => ([], true, m)
  | st :: rest, m =>
    match st.exec m with
    | (true, m') => let (done, ok, m'') := bootRun rest m'; (st :: done, ok, m'')
    | (false, m') => ([], false, m')

/-- The addresses the call may write to: those of its pieces; for an ELF image the target ranges of the
loadable segments as the program headers give them (longer than the pieces if the file is too short, in
which case the call fails). -/
def BootStep.Targets (x : Nat) : BootStep → Prop
  | .elf rd k _ => InSegments rd.data k x
  | st => InPieces st.pieces x

/-- The calls have no target address in common. -/
def BootStep.Disjoint (s t : BootStep) : Prop := ∀ x, ¬ (s.Targets x ∧ t.Targets x)

/-- Memory holds everything the call is meant to put there. -/
def BootStep.InPlace (s : BootStep) (m : Mem) : Prop :=
  ∀ x b, lastPiece s.pieces x = some b → m.data x = b

end LinuxLoader.Spec
