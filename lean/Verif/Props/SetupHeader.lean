import Verif.Spec.SetupHeader
import Verif.Props.CmdlineLimit

/-!
# The returned setup header tells what the kernel demands (C99)

Vocabulary: `Spec/SetupHeader.lean`.
-/

namespace LinuxLoader
open Spec Cmdline Spec.Kernel Spec.Setup

theorem leField_shift {a b : List UInt8} {o p n : Nat} (h : ∀ i, i < n → a[o + i]? = b[p + i]?) :
    leField a o n = leField b p n := by
  unfold leField
  congr 1
  apply List.ext_getElem?
  intro i
  rw [List.getElem?_take, List.getElem?_take, List.getElem?_drop, List.getElem?_drop]
  split
  · exact h i (by assumption)
  · rfl

/-- **C99.** Every field of the setup header but `code32_start` has in the returned header the value that it has
in the image. -/
theorem C99_field {koff highmem : Option GuestAddr} {s s' : LS} {r : LoadResult} (hns : NoShortReads s)
    (h : bzLoad koff highmem s = (.ok r, s')) :
    ∃ hdr, r.setupHeader = some hdr ∧ ∀ off n, 0x1f1 ≤ off → off + n ≤ 0x26c →
      (off + n ≤ 0x214 ∨ 0x218 ≤ off) → headerField hdr off n = imageField s.rd.data off n := by
  obtain ⟨hdr, h1, -, h2, -⟩ := C48_bz_setup_header hns h
  refine ⟨hdr, h1, fun off n h3 h4 h5 => leField_shift fun i hi => ?_⟩
  rw [h2 _ (by omega) (by omega)]
  congr 1
  omega

/-- **C99.** The demands of the kernel are the same, read in the returned header and in the image. -/
theorem C99_demands {koff highmem : Option GuestAddr} {s s' : LS} {r : LoadResult} (hns : NoShortReads s)
    (h : bzLoad koff highmem s = (.ok r, s')) :
    ∃ hdr, r.setupHeader = some hdr ∧ demands (headerField hdr) = demands (imageField s.rd.data) := by
  obtain ⟨hdr, h1, h2⟩ := C99_field hns h
  refine ⟨hdr, h1, ?_⟩
  unfold demands
  rw [h2 0x206 2, h2 0x211 1, h2 0x22c 4, h2 0x234 1, h2 0x230 4, h2 0x236 2, h2 0x238 4, h2 0x258 8,
    h2 0x260 4, h2 0x250 8] <;> omega

/-- **C99.** Without `kernel_offset` the kernel is at an address that suits it. -/
theorem C99_default_suits {highmem : Option GuestAddr} {s s' : LS} {r : LoadResult} (hns : NoShortReads s)
    (h : bzLoad none highmem s = (.ok r, s')) :
    ∃ hdr, r.setupHeader = some hdr ∧
      Suitable (demands (headerField hdr)) (imageField s.rd.data 0x214 4) r.kernelLoad := by
  obtain ⟨hdr, h1, -⟩ := C99_demands hns h
  exact ⟨hdr, h1, .inl (C47_bz_default_address hns h)⟩

/-- **C99.** A VMM that takes the capacity of the command line from the returned header: whatever it adds, the
kernel of the image gets the complete line. -/
theorem C99_cmdline {koff highmem : Option GuestAddr} {s s' : LS} {r : LoadResult} (hns : NoShortReads s)
    (hload : bzLoad koff highmem s = (.ok r, s')) {hdr : List UInt8} (hr : r.setupHeader = some hdr)
    (cap : UInt64) (hcap : cap.toNat = (demands (headerField hdr)).cmdlineLimit + 1)
    (c₀ : Cmdline) (h₀ : Cmdline.new cap = .ok c₀ ∨ ∃ t, Cmdline.tryFrom t cap = .ok c₀) (ops : List Op)
    (a : GuestAddr) (m m' : Mem) (h : loadCmdline a (c₀.run ops) m = (.ok (), m')) :
    cstr m'.data a.toNat (demands (imageField s.rd.data)).cmdlineLimit =
      (text (c₀.run ops).bootArgs (c₀.run ops).initArgs).utf8 := by
  obtain ⟨hdr', h1, h2⟩ := C99_demands hns hload
  obtain rfl : hdr' = hdr := Option.some.inj (h1.symm.trans hr)
  exact C97_capacity cap c₀ h₀ ops a m m' h _ (by rw [← h2, hcap]; exact Nat.le_refl _)

/-! ## Concrete images -/

/-- A setup header of protocol 2.15 with the fields that `demands` reads. -/
def mkHdr215 (reloc align limit init : Nat) : List UInt8 :=
  (mkBzHdr 1 0x53726448 0x20f 1 0x40).take (0x22c - 0x1f1) ++ leBytes 4 0x7fffffff ++ leBytes 4 align ++
    leBytes 1 reloc ++ leBytes 1 21 ++ leBytes 2 3 ++ leBytes 4 limit ++ List.replicate 20 0x15 ++
    leBytes 8 0 ++ leBytes 8 0x40 ++ leBytes 4 init ++ List.replicate 8 0x16

/-- A relocatable kernel. -/
def bzReloc : List UInt8 := mkBz (mkHdr215 1 0x10 100 0x1000)
/-- A kernel that is not relocatable. -/
def bzFixed : List UInt8 := mkBz (mkHdr215 0 0x10 100 0x20)

/-- The images in a faultless reader. -/
def relocState : LS := ⟨⟨bzReloc, 3, fun _ => .ok, 0⟩, elfMem⟩
/-- The images in a faultless reader. -/
def fixedState : LS := ⟨⟨bzFixed, 3, fun _ => .ok, 0⟩, elfMem⟩

theorem relocState_full : NoShortReads relocState := fun _ _ h => nomatch h

/-- The header `bzLoad` returns for `bzReloc` at 0x80. -/
def relocHdr : List UInt8 := setCode32 (mkHdr215 1 0x10 100 0x1000) 0x80

theorem reloc_loads : (bzLoad (some 0x80) none relocState).1 = .ok ⟨0x80, 0x85, some relocHdr, .ignored⟩ := by
  decide +kernel

theorem reloc_loads_default : (bzLoad none none relocState).1 =
    .ok ⟨0x40, 0x45, some (mkHdr215 1 0x10 100 0x1000), .ignored⟩ := by decide +kernel

example : demands (headerField relocHdr) =
    ⟨0x20f, true, 0x7fffffff, true, 0x10, true, true, 100, 0x40, 0x1000, 0⟩ := by decide +kernel

/-- Fields that say where they are read and how long they are, and end in the byte `low`; except the version. -/
def traceFields (v low : Nat) (off n : Nat) : Nat := if off = 0x206 ∧ n = 2 then v else 0x10000 * off + 0x100 * n + low

/-- What is demanded before and after each version of the protocol that brought a field, and with which bits. -/
example :
    demands (traceFields 0x200 3) =
      ⟨0x200, true, 0x37ffffff, false, 0, false, false, 255, 0, 0, 0⟩ ∧
    demands (traceFields 0x202 3) =
      ⟨0x202, true, 0x37ffffff, false, 0, false, false, 255, 0, 0, 0⟩ ∧
    demands (traceFields 0x203 3) =
      ⟨0x203, true, 0x22c0403, false, 0, false, false, 255, 0, 0, 0⟩ ∧
    demands (traceFields 0x204 3) =
      ⟨0x204, true, 0x22c0403, false, 0, false, false, 255, 0, 0, 0⟩ ∧
    demands (traceFields 0x205 3) =
      ⟨0x205, true, 0x22c0403, true, 0x2300403, false, false, 255, 0, 0, 0⟩ ∧
    demands (traceFields 0x206 3) =
      ⟨0x206, true, 0x22c0403, true, 0x2300403, false, false, 0x2380403, 0, 0, 0⟩ ∧
    demands (traceFields 0x208 3) =
      ⟨0x208, true, 0x22c0403, true, 0x2300403, false, false, 0x2380403, 0, 0, 0⟩ ∧
    demands (traceFields 0x209 3) =
      ⟨0x209, true, 0x22c0403, true, 0x2300403, false, false, 0x2380403, 0, 0, 0x2500803⟩ ∧
    demands (traceFields 0x20a 3) =
      ⟨0x20a, true, 0x22c0403, true, 0x2300403, false, false, 0x2380403, 0x2580803, 0x2600403, 0x2500803⟩ ∧
    demands (traceFields 0x20b 3) =
      ⟨0x20b, true, 0x22c0403, true, 0x2300403, false, false, 0x2380403, 0x2580803, 0x2600403, 0x2500803⟩ ∧
    demands (traceFields 0x20c 3) =
      ⟨0x20c, true, 0x22c0403, true, 0x2300403, true, true, 0x2380403, 0x2580803, 0x2600403, 0x2500803⟩ ∧
    demands (traceFields 0x20b 1) =
      ⟨0x20b, true, 0x22c0401, true, 0x2300401, false, false, 0x2380401, 0x2580801, 0x2600401, 0x2500801⟩ ∧
    demands (traceFields 0x20c 1) =
      ⟨0x20c, true, 0x22c0401, true, 0x2300401, true, false, 0x2380401, 0x2580801, 0x2600401, 0x2500801⟩ ∧
    demands (traceFields 0x20c 2) =
      ⟨0x20c, false, 0x22c0402, true, 0x2300402, false, true, 0x2380402, 0x2580802, 0x2600402, 0x2500802⟩ ∧
    demands (traceFields 0x20f 0) =
      ⟨0x20f, false, 0x22c0400, true, 0x2300400, false, false, 0x2380400, 0x2580800, 0x2600400, 0x2500800⟩ := by
  decide +kernel

/-- Fields that are 0. -/
example : demands (fun off _ => if off = 0x206 then 0x205 else 0) =
    ⟨0x205, false, 0, false, 0, false, false, 255, 0, 0, 0⟩ := by decide +kernel

example := C99_field relocState_full (ran reloc_loads)
example := C99_demands relocState_full (ran reloc_loads)
example := C99_default_suits relocState_full (ran reloc_loads_default)
example := C99_cmdline relocState_full (ran reloc_loads) rfl 101 (by decide +kernel) ⟨[], [], 101⟩
  (.inl (by decide +kernel)) [.insertStr (List.replicate 90 'x'), .insert "root".toList "sda1".toList,
    .insert "refused".toList "".toList] 0x2000 longMem _ (ran (by decide +kernel))

/-- **C99 (refuted).** `load` refuses a `kernel_offset` that does not suit the kernel. -/
theorem C99_offset_refuted : ¬ ∀ (k : GuestAddr) (highmem : Option GuestAddr) (s s' : LS) (r : LoadResult),
    FaultFree s → bzLoad (some k) highmem s = (.ok r, s') →
    Suitable (demands (imageField s.rd.data)) (imageField s.rd.data 0x214 4) r.kernelLoad := by
  intro H
  have h1 : (bzLoad (some 0x88) none fixedState).1 =
      .ok ⟨0x88, 0x8d, some (setCode32 (mkHdr215 0 0x10 100 0x20) 0x88), .ignored⟩ := by decide +kernel
  rcases H 0x88 none fixedState _ _ (fun _ => rfl) (ran h1) with h | ⟨h, -⟩
  · exact absurd h (by decide +kernel)
  · exact absurd h (by decide +kernel)

/-- **C99 (refuted).** A loaded kernel has the memory it demands (`init_size`). -/
theorem C99_initSize_refuted : ¬ ∀ (koff highmem : Option GuestAddr) (s s' : LS) (r : LoadResult),
    FaultFree s → bzLoad koff highmem s = (.ok r, s') →
    Mapped s.mem r.kernelLoad (demands (imageField s.rd.data)).initSize := by
  intro H
  have h := H (some 0x80) none relocState _ _ (fun _ => rfl) (ran reloc_loads) 0x107f
    ⟨by decide +kernel, by decide +kernel⟩
  exact absurd h (by decide +kernel)

end LinuxLoader
