import Verif.Spec.AnyReader
import Verif.Spec.Elf
import Verif.Model.AnyMem
import Verif.Spec.Pvh

/-!
# Specification vocabulary: which error names which failed operation

From the names and documentation of the error variants (src/loader/elf/mod.rs:42-77,
src/loader/bzimage/mod.rs:27-44, src/loader/pe/mod.rs:27-51, src/configurator). Below, `log` is the record of
the requests made before the failed one, and `o` the failed one.
-/

namespace LinuxLoader.Spec

/-- No request of a call failed silently, and none was reported to have failed that did not. `names e log o`:
`e` is the error for a failure of `o` after `log`. -/
structure Reports {Q A ε α : Type} (failed : A) (names : ε → List (Q × A) → Q → Prop) (r : Res ε α)
    (log : List (Q × A)) : Prop where
  /-- After a failed request no other is made, and the call returns the error that names it. -/
  notSwallowed : ∀ before o after, log = before ++ (o, failed) :: after →
    after = [] ∧ ∃ e, r = .err e ∧ names e before o
  /-- An error that names a request is returned only after this request failed. -/
  notInvented : ∀ e, r = .err e → (∃ l o, names e l o) → ∃ before o, log = before ++ [(o, failed)]

/-- `Elf::load`. -/
def ElfNames (koff : Option GuestAddr) : LoadError → List (RdOp × Answer) → RdOp → Prop
  | .elf .seekElfStart, log, o => log = [] ∧ o = .seekStart 0
  | .elf .readElfHeader, log, o => log.length = 1 ∧ o = .readExact 64
  | .elf .seekProgramHeader, log, o => log.length = 2 ∧ ∃ eh, delivered 64 log = [eh] ∧ o = .seekStart (elfPhoff eh)
  | .elf .readProgramHeader, log, o => ∃ eh, delivered 64 log = [eh] ∧
      (deliveredPhdrs log).length < elfPhnum eh ∧ o = .readExact 56
  | .elf .seekKernelStart, log, o => ∃ h ∈ deliveredPhdrs log, h.Loadable ∧ o = .seekStart h.offset
  | .elf .readKernelImage, log, o => ∃ h ∈ deliveredPhdrs log, h.Loadable ∧
      o = .readIntoMem (koffBase koff + h.paddr) h.filesz
  | .elf .seekNoteHeader, log, o => koff = none ∧ ∃ h ∈ deliveredPhdrs log, h.IsNote ∧
      ((∃ r, o = .seekStart (h.offset + r)) ∨ o = .seekCur 0)
  | .elf .readNoteHeader, log, o => koff = none ∧ (∃ h ∈ deliveredPhdrs log, h.IsNote) ∧
      (o = .readExact 12 ∨ o = .readExact 4)
  | _, _, _ => False

/-- `BzImage::load`. -/
def BzNames (koff : Option GuestAddr) : LoadError → List (RdOp × Answer) → RdOp → Prop
  | .bz .seekBzImageEnd, log, o => log = [] ∧ o = .seekEnd
  | .bz .seekBzImageHeader, log, o => log.length = 1 ∧ o = .seekStart 0x1f1
  | .bz .readBzImageHeader, log, o => log.length = 2 ∧ o = .readVolatile 123
  | .bz .seekBzImageCompressedKernel, log, o => log.length = 3 ∧ ∃ h, deliveredVolatile 123 log = [h] ∧
      o = .seekStart (bzSetupBytes (bzWithHeader h))
  | .bz .readBzImageCompressedKernel, log, o => log.length = 4 ∧ ∃ size h, deliveredSizes log = [size] ∧
      deliveredVolatile 123 log = [h] ∧
      o = .readIntoMem (bzAddress (bzWithHeader h) koff) (size - bzSetupBytes (bzWithHeader h))
  | _, _, _ => False

/-- `PE::load`. -/
def PeNames (arch : PeArch) (koff : Option GuestAddr) : LoadError → List (RdOp × Answer) → RdOp → Prop
  | .pe .seekImageEnd, log, o => log = [] ∧ o = .seekEnd
  | .pe .seekImageHeader, log, o => (log.length = 1 ∨ log.length = 3) ∧ o = .seekStart 0
  | .pe .readImageHeader, log, o => log.length = 2 ∧ o = .readExact 64
  | .pe .readKernelImage, log, o => log.length = 4 ∧ ∃ size h, deliveredSizes log = [size] ∧
      delivered 64 log = [h] ∧ o = .readIntoMem (peAddress arch h koff) size
  | _, _, _ => False

/-- `load_dtb`. -/
def DtbNames (a : GuestAddr) : LoadError → List (RdOp × Answer) → RdOp → Prop
  | .pe .seekDtbEnd, log, o => log = [] ∧ o = .seekEnd
  | .pe .seekDtbStart, log, o => log.length = 1 ∧ o = .seekStart 0
  | .pe .readDtbImage, log, o => log.length = 2 ∧ ∃ size, deliveredSizes log = [size] ∧ o = .readIntoMem a.toNat size
  | _, _, _ => False

/-- What was written to guest memory according to the log. -/
def written (log : MemLog) : List (Nat × List UInt8) :=
  log.filterMap fun
    | (.writeSlice a bytes, .done) => some (a.toNat, bytes)
    | _ => none

/-- `load_cmdline`. `CommandLineOverflow` is found by comparing addresses. -/
def CmdlineNames (a : GuestAddr) : CmdlineLoadError → MemLog → MemReq → Prop
  | .commandLineCopy, _, o => ∃ bytes, o = .writeSlice a bytes
  | _, _, _ => False

/-- `LinuxBootConfigurator`. -/
def LinuxNames (p : BootParams) : LinuxError → MemLog → MemReq → Prop
  | .zeroPagePastRamEnd, _, o => o = .checkedOffset p.headerStart p.header.length
  | .zeroPageSetup, _, o => o = .writeSlice p.headerStart p.header

/-- `FdtBootConfigurator`. -/
def FdtNames (p : BootParams) : FdtError → MemLog → MemReq → Prop
  | .fdtPastRamEnd, _, o => o = .checkedOffset p.headerStart p.header.length
  | .writeFdtToMemory, _, o => o = .writeSlice p.headerStart p.header

/-- `PvhBootConfigurator`. The memory map may equal the start info, and be at the same address: the
number of writes before tells them apart. -/
def PvhNames (p : BootParams) : PvhError → MemLog → MemReq → Prop
  | .memmapTablePastRamEnd, log, o => log = [] ∧
      ∃ a b, p.sectionsStart = some a ∧ p.sections = some b ∧ o = .checkedOffset a b.length
  | .memmapTableSetup, log, o => written log = [] ∧
      ∃ a b, p.sectionsStart = some a ∧ p.sections = some b ∧ o = .writeSlice a b
  | .startInfoPastRamEnd, log, o => (written log).length = 1 ∧ o = .checkedOffset p.headerStart p.header.length
  | .startInfoSetup, log, o => (written log).length = 1 ∧ o = .writeSlice p.headerStart p.header
  | .modulesSetup, log, o => (written log).length = 2 ∧
      ∃ a b, p.modulesStart = some a ∧ p.modules = some b ∧ o = .writeSlice a b
  | _, _, _ => False

end LinuxLoader.Spec
