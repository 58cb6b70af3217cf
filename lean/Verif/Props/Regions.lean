import Verif.Lemmas.RegionWalk
import Verif.Props.MemoryUse

/-!
# Guest memory that consists of several regions (C71)

The access loops of vm-memory: `Model/RegionWalk.lean`. Vocabulary: `Spec/Memory2.lean`.
-/

namespace LinuxLoader
open Spec

/-- **C71.** `write_slice` in terms of `try_access`: for every memory, every address and every slice the
loop writes exactly the bytes up to the first unmapped address (all of them if there is none) and
reports success iff that is everything and the start is mapped. -/
theorem C71_write_slice_try_access (m : Mem) (bs : List UInt8) (a : GuestAddr) :
    (∃ k, k ≤ bs.length ∧ Mapped m a.toNat k ∧ (k < bs.length → m.mapped (a.toNat + k) = false) ∧
      Stored m (writeSliceTry m bs a).2 a.toNat (bs.take k)) ∧
    ((writeSliceTry m bs a).1 = true ↔
      Mapped m a.toNat bs.length ∧ (bs = [] → m.mapped a.toNat = true)) := by
  rw [writeSliceTry_run]
  refine ⟨⟨m.mappedPrefix a.toNat bs.length, Mem.mappedPrefix_le _ _ _, Mem.mapped_of_prefix _ _ _,
    Mem.prefix_stop, Mem.stored_store _ _ _⟩, ?_⟩
  simp only [Bool.and_eq_true, beq_iff_eq, Mem.prefix_eq_iff, Bool.or_eq_true, bne_iff_ne, ne_eq,
    List.length_eq_zero_iff]
  refine and_congr_right fun _ => ?_
  by_cases hb : bs = [] <;> simp [hb]

/-- **C71.** `write_slice` in terms of `get_slices`: the same, except that an empty slice can be written
at any address. -/
theorem C71_write_slice_get_slices (m : Mem) (bs : List UInt8) (a : GuestAddr) :
    (∃ k, k ≤ bs.length ∧ Mapped m a.toNat k ∧ (k < bs.length → m.mapped (a.toNat + k) = false) ∧
      Stored m (writeSliceIter m bs a).2 a.toNat (bs.take k)) ∧
    ((writeSliceIter m bs a).1 = true ↔ Mapped m a.toNat bs.length) := by
  rw [writeSliceIter_run]
  refine ⟨⟨m.mappedPrefix a.toNat bs.length, Mem.mappedPrefix_le _ _ _, Mem.mapped_of_prefix _ _ _,
    Mem.prefix_stop, Mem.stored_store _ _ _⟩, ?_⟩
  simp only [beq_iff_eq, Mem.prefix_eq_iff]

/-- **C71.** So both loops are the operation that the model of the crate uses. -/
theorem C71_write_slice (m : Mem) (bs : List UInt8) (a : GuestAddr) :
    (m.emptyOk = false → writeSliceTry m bs a = m.writeSlice bs a) ∧
    (m.emptyOk = true → writeSliceIter m bs a = m.writeSlice bs a) :=
  ⟨fun h => writeSliceTry_eq h bs a, fun h => writeSliceIter_eq h bs a⟩

/-- Five bytes over three regions, the last of which is too short. -/
example : let m : Mem := ⟨[⟨0x12, 1⟩, ⟨0x10, 2⟩, ⟨0x13, 1⟩], fun _ => 0, true⟩
    let r := writeSliceIter m [1, 2, 3, 4, 5] 0x10
    r.1 = false ∧ (List.range 5).map (fun i => r.2.data (0x10 + i)) = [1, 2, 3, 4, 0] ∧
    (writeSliceTry m [1, 2, 3, 4, 5] 0x10).1 = false ∧ (writeSliceTry m [1, 2, 3, 4] 0x10).1 = true ∧
    (writeSliceTry m [] 0x20).1 = false ∧ (writeSliceIter m [] 0x20).1 = true := by decide +kernel

/-- **C71.** How guest memory is divided into regions does not matter to the loaders. -/
theorem C71_loaders (arch : PeArch) (k h : Option GuestAddr) (a : GuestAddr) :
    RegionsIrrelevant (elfLoad k h) ∧ RegionsIrrelevant (bzLoad k h) ∧
    RegionsIrrelevant (peLoad arch k h) ∧ RegionsIrrelevant (loadDtb a) :=
  ⟨(Track.elfLoad k h).regions, (Track.bzLoad k h).regions, (Track.peLoad arch k h).regions,
   (Track.loadDtb a).regions⟩

/-- **C71.** The same for the command line and the boot configurators. -/
theorem C71_configurators (a : GuestAddr) (c : Cmdline) (p : BootParams) :
    RegionsIrrelevantM (loadCmdline a c) ∧ RegionsIrrelevantM (linuxWrite p) ∧
    RegionsIrrelevantM (fdtWrite p) ∧ RegionsIrrelevantM (pvhWrite p) :=
  ⟨(Track.loadCmdline a c).regionsM, (Track.linuxWrite p).regionsM, (Track.fdtWrite p).regionsM,
   (Track.pvhWrite p).regionsM⟩

/-- **C71**, for a whole boot sequence of any calls. -/
theorem C71_sequence (steps : List BootStep) (m₁ m₂ : Mem) (hw₁ : m₁.WF) (hw₂ : m₂.WF)
    (hs : SameAddresses m₁ m₂) (hd : ∀ x, m₁.mapped x = true → m₂.data x = m₁.data x) :
    (bootRun steps m₁).1 = (bootRun steps m₂).1 ∧
    (bootRun steps m₁).2.1 = (bootRun steps m₂).2.1 ∧
    ∀ x, m₁.mapped x = true → (bootRun steps m₂).2.2.data x = (bootRun steps m₁).2.2.data x := by
  obtain ⟨w, h1, h2, h3, h4⟩ :=
    bootRun_track steps true m₁ m₂ (SameMap.ofAddresses hw₁ hw₂ hs) (.inl rfl)
  refine ⟨h1, h2, fun x hx => ?_⟩
  rw [h3, h4]
  unfold overwrite
  dsimp only
  rw [hd x hx]

/-- The memory of `Props/Boot.lean`, its first region cut in three, one of them a single byte. -/
def cutMem : Mem := ⟨[⟨0x1000, 0x400⟩, ⟨0x21, 0x1df⟩, ⟨0x20, 1⟩, ⟨0, 0x20⟩], fun _ => 0xee, false⟩

/-- Non-vacuity: a boot sequence on it, with a segment across the cut. -/
example : bootMem.WF ∧ cutMem.WF ∧ SameAddresses bootMem cutMem ∧
    (bootRun bootSteps cutMem).1.length = 3 ∧
    (List.range 4).map (fun i => (bootRun bootSteps cutMem).2.2.data (0x20 + i)) =
      [0xa1, 0xa2, 0xa3, 0xa4] := by
  refine ⟨bootMem_wf, ⟨?_, ?_⟩, ⟨fun x => ?_, rfl⟩, by decide +kernel, by decide +kernel⟩
  · intro r hr
    simp only [cutMem, List.mem_cons, List.not_mem_nil, or_false] at hr
    rcases hr with rfl | rfl | rfl | rfl <;> decide
  · simp [cutMem]
  · simp only [cutMem, bootMem, Mem.mapped, List.any_cons, List.any_nil, Bool.or_false]
    rw [Bool.eq_iff_iff]
    simp only [Bool.or_eq_true, Bool.and_eq_true, decide_eq_true_eq]
    omega

end LinuxLoader
