import Verif.Spec.Beginning
import Verif.Spec.Images

/-!
# Complete specifications of the calls that write to guest memory

For each call: what can prevent it, in the order in which it is reported; what it returns if nothing does; which
pieces (address, bytes) it puts into memory; and what it leaves behind if something prevents it. Nothing here refers
to how a call works.
-/

namespace LinuxLoader.Spec

/-- A call on memory `m` that has returned `res` and left memory `m'` has done what it should: if there is no obstacle
it has succeeded with a value as described and its pieces are in memory, later ones on top of earlier ones, and nothing
else has changed; if `e` is the error of the first obstacle it has returned `e`, and has left behind what it may. -/
structure DoneRight {ε α : Type} (obstacles : List (ε × Prop)) (value : α → Prop) (pieces : List (Nat × List UInt8))
    (left : ε → Mem → Prop) (m : Mem) (res : Res ε α) (m' : Mem) : Prop where
  succeeds : FirstObstacle obstacles none → ∃ r, res = .ok r ∧ value r ∧ Overlaid pieces m m'
  fails : ∀ e, FirstObstacle obstacles (some e) → res = .err e ∧ left e m'

/-- The result of loading an ELF image. -/
structure ElfValue (img : List UInt8) (koff : Option GuestAddr) (r : LoadResult) : Prop where
  load : r.kernelLoad = koffBase koff + elfEntry img
  kend : IsMaxOf r.kernelEnd (elfEnds img koff)
  header : r.setupHeader = none
  relocated : koff ≠ none → r.pvh = .ignored
  noNotes : koff = none → lastNote img = none → r.pvh = .ignored
  notes : koff = none → ∀ ph, lastNote img = some ph → segmentOutcome img ph.offset ph.filesz 0 = .ok r.pvh

/-- What a failed load of an ELF image leaves behind: nothing, if the header is at fault; if it is program header `h`,
the segments in front of it and of its own segment nothing, the bytes up to the first unmapped address, or everything,
according to the error. -/
def elfLeft (img : List UInt8) (koff highmem : Option GuestAddr) (m : Mem) (e : LoadError) (m' : Mem) : Prop :=
  (FirstObstacle (elfHeaderObstacles img koff highmem) (some e) → m' = m) ∧
  ∀ (pre post : List Phdr) (h : Phdr), FirstObstacle (elfHeaderObstacles img koff highmem) none →
    elfPhdrs img = pre ++ h :: post → FirstObstacle (pre.flatMap (phdrObstacles img koff m)) none →
    FirstObstacle (phdrObstacles img koff m h) (some e) →
    ∃ j, Reach m (koffBase koff + h.paddr) (h.contents img).length j ∧
      Overlaid ((pre.filter fun g => decide g.Loadable).map
            (fun g => (koffBase koff + g.paddr, g.contents img)) ++ stoppedPiece img koff h e j) m m'

/-- `Elf::load` has done what it should. -/
def ElfDone (img : List UInt8) (koff highmem : Option GuestAddr) (m : Mem) : Res LoadError LoadResult → Mem → Prop :=
  DoneRight (elfObstacles img koff highmem m) (ElfValue img koff) (elfPieces img koff) (elfLeft img koff highmem m) m

/-- The result of loading a bzImage. -/
structure BzValue (img : List UInt8) (koff : Option GuestAddr) (r : LoadResult) : Prop where
  load : r.kernelLoad = bzAddress img koff
  kend : r.kernelEnd = bzAddress img koff + (bzKernel img).length
  pvh : r.pvh = .ignored
  header : ∃ hdr, r.setupHeader = some hdr ∧ hdr.length = 123 ∧
    (∀ i, i < 123 → (i < 0x23 ∨ 0x27 ≤ i) → hdr[i]? = img[0x1f1 + i]?) ∧
    leField hdr 0x23 4 = r.kernelLoad % 0x100000000

/-- `BzImage::load` has done what it should. -/
def BzDone (img : List UInt8) (koff highmem : Option GuestAddr) (m : Mem) : Res LoadError LoadResult → Mem → Prop :=
  DoneRight (bzObstacles img koff highmem m) (BzValue img koff) [(bzAddress img koff, bzKernel img)]
    (fun e => LeftExactly [(bzAddress img koff, bzKernel img)] (if e = .memoryOverflow then 1 else 0)
      (e = .bz .readBzImageCompressedKernel) m) m

/-- The result of loading a PE image. -/
structure PeValue (arch : PeArch) (img : List UInt8) (koff : Option GuestAddr) (r : LoadResult) : Prop where
  load : r.kernelLoad = peAddress arch img koff
  kend : r.kernelEnd = peAddress arch img koff + img.length
  header : r.setupHeader = none
  pvh : r.pvh = .ignored

/-- `PE::load` has done what it should. -/
def PeDone (arch : PeArch) (img : List UInt8) (koff : Option GuestAddr) (m : Mem) :
    Res LoadError LoadResult → Mem → Prop :=
  DoneRight (peObstacles arch img koff m) (PeValue arch img koff) [(peAddress arch img koff, img)]
    (fun e => LeftExactly [(peAddress arch img koff, img)] (if e = .memoryOverflow then 1 else 0)
      (e = .pe .readKernelImage) m) m

/-- What can prevent a device tree from being loaded at `a`. -/
def dtbObstacles (blob : List UInt8) (a : GuestAddr) (m : Mem) : List (LoadError × Prop) :=
  [(.pe .dtbTooBig, 0x200000 < blob.length), (.pe .readDtbImage, ¬ Accessible m a.toNat blob.length)]

/-- `load_dtb` has done what it should. -/
def DtbDone (blob : List UInt8) (a : GuestAddr) (m : Mem) : Res LoadError Unit → Mem → Prop :=
  DoneRight (dtbObstacles blob a m) (fun _ => True) [(a.toNat, blob)]
    (fun e => LeftExactly [(a.toNat, blob)] 0 (e = .pe .readDtbImage) m) m

/-- What can prevent a command line with these boot and init arguments from being written at `a`; `last` is the highest
mapped address. -/
def lineObstacles (boot init : Str) (a : GuestAddr) (m : Mem) (last : Nat) : List (CmdlineLoadError × Prop) :=
  [(.invalidCommandLine, (boot = [] ∧ init ≠ []) ∨ '\x00' ∈ text boot init),
   (.commandLineOverflow, last < a.toNat + (text boot init).utf8.length),
   (.commandLineCopy, ¬ Mapped m a.toNat ((text boot init).utf8.length + 1))]

/-- `load_cmdline` has done what it should. -/
def LineDone (boot init : Str) (a : GuestAddr) (m : Mem) (last : Nat) : Res CmdlineLoadError Unit → Mem → Prop :=
  DoneRight (lineObstacles boot init a m last) (fun _ => True) [(a.toNat, (text boot init).utf8 ++ [0])]
    (fun e => LeftExactly [(a.toNat, (text boot init).utf8 ++ [0])] 0 (e = .commandLineCopy) m) m

/-- What can prevent Linux boot parameters from being written: header bytes `b` at `a`. -/
def linuxObstacles (b : List UInt8) (a : GuestAddr) (m : Mem) : List (LinuxError × Prop) :=
  [(.zeroPagePastRamEnd, m.mapped (a.toNat + b.length) = false), (.zeroPageSetup, ¬ Mapped m a.toNat b.length)]

/-- `LinuxBootConfigurator::write_bootparams` has done what it should. -/
def LinuxDone (p : BootParams) (m : Mem) : Res LinuxError Unit → Mem → Prop :=
  DoneRight (linuxObstacles p.header p.headerStart m) (fun _ => True) [(p.headerStart.toNat, p.header)]
    (fun e => LeftExactly [(p.headerStart.toNat, p.header)] 0 (e = .zeroPageSetup) m) m

/-- What can prevent a device tree from being written by the configurator. -/
def fdtObstacles (b : List UInt8) (a : GuestAddr) (m : Mem) : List (FdtError × Prop) :=
  [(.fdtPastRamEnd, m.mapped (a.toNat + b.length) = false), (.writeFdtToMemory, ¬ Mapped m a.toNat b.length)]

/-- `FdtBootConfigurator::write_bootparams` has done what it should. -/
def FdtDone (p : BootParams) (m : Mem) : Res FdtError Unit → Mem → Prop :=
  DoneRight (fdtObstacles p.header p.headerStart m) (fun _ => True) [(p.headerStart.toNat, p.header)]
    (fun e => LeftExactly [(p.headerStart.toNat, p.header)] 0 (e = .writeFdtToMemory) m) m

/-- `PvhBootConfigurator::write_bootparams` has done what it should. -/
def PvhDone (p : BootParams) (m : Mem) : Res PvhError Unit → Mem → Prop :=
  DoneRight (pvhObstacles p m) (fun _ => True) (pvhPieces p)
    (fun e => LeftExactly (pvhPieces p) (pvhComplete e) (pvhCut e) m) m

end LinuxLoader.Spec
