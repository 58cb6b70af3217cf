import Verif.Lemmas.IoErrors
import Verif.Props.AnyReader

/-!
# Failed operations are reported, and only they (C86)

The reader and guest memory may fail at any request. `Spec/IoErrors.lean` has the table of errors.
-/

namespace LinuxLoader
open Spec

/-! ## Loaders -/

/-- C86 (ELF): whatever the reader does, a failed request is the last one made, and `Elf::load` returns the
error that names it; and such an error is returned only then. -/
theorem C86_elf (R : AnyReader) (koff highmem : Option GuestAddr) (m : Mem) :
    Reports .failed (ElfNames koff) (G.elfLoad (anyIo R) koff highmem (fresh m)).1
      (G.elfLoad (anyIo R) koff highmem (fresh m)).2.log := (rep_elfLoad highmem m).reports

/-- C86 (bzImage). -/
theorem C86_bz (R : AnyReader) (koff highmem : Option GuestAddr) (m : Mem) :
    Reports .failed (BzNames koff) (G.bzLoad (anyIo R) koff highmem (fresh m)).1
      (G.bzLoad (anyIo R) koff highmem (fresh m)).2.log := (rep_bzLoad koff highmem m).reports

/-- C86 (PE). -/
theorem C86_pe (R : AnyReader) (arch : PeArch) (koff highmem : Option GuestAddr) (m : Mem) :
    Reports .failed (PeNames arch koff) (G.peLoad (anyIo R) arch koff highmem (fresh m)).1
      (G.peLoad (anyIo R) arch koff highmem (fresh m)).2.log := (rep_peLoad arch koff highmem m).reports

/-- C86 (device tree). -/
theorem C86_dtb (R : AnyReader) (a : GuestAddr) (m : Mem) :
    Reports .failed (DtbNames a) (G.loadDtb (anyIo R) a (fresh m)).1 (G.loadDtb (anyIo R) a (fresh m)).2.log :=
  (rep_loadDtb a m).reports

/-- A reader that behaves like `R` but fails the `n`-th request. -/
def failingAt (R : AnyReader) (n : Nat) : AnyReader :=
  { R with fails := fun ops o => ops.length == n || R.fails ops o }

/-- C86 is not vacuous: the readers for which the error is returned after 0, 1, 2, 3, 4 requests; the
errors differ. -/
theorem C86_example :
    (G.elfLoad (anyIo (failingAt hostileReader 0)) none none (fresh elfMem)).1 = .err (.elf .seekElfStart) ∧
    (G.elfLoad (anyIo (failingAt hostileReader 1)) none none (fresh elfMem)).1 = .err (.elf .readElfHeader) ∧
    (G.elfLoad (anyIo (failingAt hostileReader 2)) none none (fresh elfMem)).1 = .err (.elf .seekProgramHeader) ∧
    (G.elfLoad (anyIo (failingAt hostileReader 3)) none none (fresh elfMem)).1 = .err (.elf .readProgramHeader) ∧
    (G.elfLoad (anyIo (failingAt hostileReader 4)) none none (fresh elfMem)).1 = .err (.elf .seekNoteHeader) ∧
    (G.elfLoad (anyIo (failingAt hostileReader 5)) none none (fresh elfMem)).1 = .err (.elf .readNoteHeader) := by
  decide +kernel

/-! ## `load_cmdline` and `write_bootparams` -/

/-- C86 (`load_cmdline`): whatever guest memory does, a failed write is reported as `CommandLineCopy`, and
only that; `Ok` means that exactly the command line with its terminator was written successfully, and it
ends at or before the last address of guest memory. -/
theorem C86_cmdline (M : AnyMem) (a : GuestAddr) (c : Cmdline) :
    let out := G.loadCmdline (anyMemOps M) a c []
    Reports .failed (CmdlineNames a) out.1 out.2 ∧
    (out.1 = .ok () → ∃ bs, c.asCString = .ok bs ∧ written out.2 = [(a.toNat, bs ++ [0])] ∧
      a.toNat + bs.length < U64 ∧ ∃ v, (.lastAddr, .addr v) ∈ out.2 ∧ a.toNat + bs.length ≤ v.toNat) :=
  ⟨(rep_loadCmdline a c).reports, fun h => loadCmdline_written (Prod.ext h rfl)⟩

/-- C86 (Linux boot parameters). -/
theorem C86_linux (M : AnyMem) (p : BootParams) :
    let out := G.linuxWrite (anyMemOps M) p []
    Reports .failed (LinuxNames p) out.1 out.2 ∧
    (out.1 = .ok () → written out.2 = [(p.headerStart.toNat, p.header)]) :=
  ⟨(rep_linuxWrite p).reports, fun h => linuxWrite_written (Prod.ext h rfl)⟩

/-- C86 (device tree configurator). -/
theorem C86_fdt (M : AnyMem) (p : BootParams) :
    let out := G.fdtWrite (anyMemOps M) p []
    Reports .failed (FdtNames p) out.1 out.2 ∧
    (out.1 = .ok () → written out.2 = [(p.headerStart.toNat, p.header)]) :=
  ⟨(rep_fdtWrite p).reports, fun h => fdtWrite_written (Prod.ext h rfl)⟩

/-- C86 (PVH boot parameters): `Ok` means that memory map, start info and modules were written
successfully, in this order, and nothing else. -/
theorem C86_pvh (M : AnyMem) (p : BootParams) :
    let out := G.pvhWrite (anyMemOps M) p []
    Reports .failed (PvhNames p) out.1 out.2 ∧
    (out.1 = .ok () → written out.2 = pvhPieces p ∧ (∃ a b, p.sectionsStart = some a ∧ p.sections = some b) ∧
      ∀ b, p.modules = some b → ∃ a, p.modulesStart = some a) :=
  ⟨(rep_pvhWrite p).reports, fun h => pvhWrite_written (Prod.ext h rfl)⟩

/-- A memory that fails the `n`-th request and accepts all others. -/
def memFailingAt (n : Nat) : AnyMem where
  writes ops _ _ := ops.length != n
  offset ops a _ := if ops.length = n then none else some a
  last _ := 0xffffffff

/-- PVH boot parameters with memory map, start info and modules. -/
def allPvh : BootParams := ⟨[1, 2], 0x1000, some [3], some 0x2000, some [4], some 0x3000⟩

/-- The theorems are not vacuous: every request of PVH boot parameters can fail, and is reported. -/
theorem C86_pvh_example :
    (G.pvhWrite (anyMemOps (memFailingAt 0)) allPvh []).1 = .err .memmapTablePastRamEnd ∧
    (G.pvhWrite (anyMemOps (memFailingAt 1)) allPvh []).1 = .err .memmapTableSetup ∧
    (G.pvhWrite (anyMemOps (memFailingAt 2)) allPvh []).1 = .err .startInfoPastRamEnd ∧
    (G.pvhWrite (anyMemOps (memFailingAt 3)) allPvh []).1 = .err .startInfoSetup ∧
    (G.pvhWrite (anyMemOps (memFailingAt 4)) allPvh []).1 = .err .modulesSetup ∧
    (G.pvhWrite (anyMemOps (memFailingAt 5)) allPvh []).1 = .ok () := by
  decide +kernel

end LinuxLoader
