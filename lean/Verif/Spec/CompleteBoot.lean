import Verif.Spec.Boot
import Verif.Spec.Complete

/-!
# Complete specification of boot sequences

The calls with which a VMM prepares a guest (`Spec/Boot.lean`), with everything they return: what is a right list of
results and a right guest memory at the end.
-/

namespace LinuxLoader.Spec

/-- What a call returns. -/
inductive StepResult where
  | image (r : Res LoadError LoadResult)
  | dtb (r : Res LoadError Unit)
  | cmdline (r : Res CmdlineLoadError Unit)
  | linux (r : Res LinuxError Unit)
  | fdt (r : Res FdtError Unit)
  | pvh (r : Res PvhError Unit)
  | own (r : Res Unit Unit)
deriving DecidableEq

/-- The call has succeeded. -/
def StepResult.good : StepResult → Bool
  | .image r => r.isOk
  | .dtb r | .own r => r.isOk
  | .cmdline r => r.isOk
  | .linux r => r.isOk
  | .fdt r => r.isOk
  | .pvh r => r.isOk

/-- `write_slice` of the VMM's own bytes has done what it should. -/
def OwnDone (a : GuestAddr) (bytes : List UInt8) (m : Mem) : Res Unit Unit → Mem → Prop :=
  DoneRight [((), ¬ Accessible m a.toNat bytes.length)] (fun _ => True) [(a.toNat, bytes)]
    (fun _ => LeftExactly [(a.toNat, bytes)] 0 True m) m

/-- A call on guest memory `m`, whose highest mapped address is `last`, has done what it should, returning the result
given and leaving the memory given. -/
inductive StepDone (last : Nat) (m : Mem) : BootStep → StepResult → Mem → Prop
  | elf {rd k h r m'} : ElfDone rd.data k h m r m' → StepDone last m (.elf rd k h) (.image r) m'
  | bz {rd k h r m'} : BzDone rd.data k h m r m' → StepDone last m (.bz rd k h) (.image r) m'
  | pe {arch rd k h r m'} : PeDone arch rd.data k m r m' → StepDone last m (.pe arch rd k h) (.image r) m'
  | dtb {rd a r m'} : DtbDone rd.data a m r m' → StepDone last m (.dtb rd a) (.dtb r) m'
  | cmdline {a c r m'} : LineDone c.bootArgs c.initArgs a m last r m' → StepDone last m (.cmdline a c) (.cmdline r) m'
  | linux {p r m'} : LinuxDone p m r m' → StepDone last m (.linux p) (.linux r) m'
  | fdt {p r m'} : FdtDone p m r m' → StepDone last m (.fdt p) (.fdt r) m'
  | pvh {p r m'} : PvhDone p m r m' → StepDone last m (.pvh p) (.pvh r) m'
  | own {a bytes r m'} : OwnDone a bytes m r m' → StepDone last m (.own a bytes) (.own r) m'

/-- A sequence of calls, given up at the first failure, has done what it should: the results of the calls made, and
guest memory at the end. -/
inductive SequenceDone (last : Nat) : Mem → List BootStep → List StepResult → Mem → Prop
  | nil {m} : SequenceDone last m [] [] m
  | stop {m st rest r m'} : StepDone last m st r m' → r.good = false → SequenceDone last m (st :: rest) [r] m'
  | go {m st rest r rs m' m''} : StepDone last m st r m' → r.good = true → SequenceDone last m' rest rs m'' →
      SequenceDone last m (st :: rest) (r :: rs) m''

/-- What the call returns, and guest memory afterwards. -/
def BootStep.outcome (m : Mem) : BootStep → StepResult × Mem
  | .elf rd k h => (.image (elfLoad k h ⟨rd, m⟩).1, (elfLoad k h ⟨rd, m⟩).2.mem)
  | .bz rd k h => (.image (bzLoad k h ⟨rd, m⟩).1, (bzLoad k h ⟨rd, m⟩).2.mem)
  | .pe arch rd k h => (.image (peLoad arch k h ⟨rd, m⟩).1, (peLoad arch k h ⟨rd, m⟩).2.mem)
  | .dtb rd a => (.dtb (loadDtb a ⟨rd, m⟩).1, (loadDtb a ⟨rd, m⟩).2.mem)
  | .cmdline a c => (.cmdline (loadCmdline a c m).1, (loadCmdline a c m).2)
  | .linux p => (.linux (linuxWrite p m).1, (linuxWrite p m).2)
  | .fdt p => (.fdt (fdtWrite p m).1, (fdtWrite p m).2)
  | .pvh p => (.pvh (pvhWrite p m).1, (pvhWrite p m).2)
  | .own a bytes => (.own (writeSliceOr bytes a () m).1, (writeSliceOr bytes a () m).2)

/-- The calls in order, up to the first failure: what they return, and guest memory at the end. -/
def bootResults : List BootStep → Mem → List StepResult × Mem
  | [], m => ([], m)
  | st :: rest, m =>
    let (r, m') := st.outcome m
    if r.good then
      let (rs, m'') := bootResults rest m'
      (r :: rs, m'')
    else ([r], m')

end LinuxLoader.Spec
