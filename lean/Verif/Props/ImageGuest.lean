import Verif.Spec.ImageGuest
import Verif.Props.Guest
import Verif.Props.Config

/-!
# arm64 and riscv64 guests (C79), and what may be placed behind a kernel (C80)

Vocabulary: `Spec/ImageGuest.lean`, `Spec/Boot.lean`.
-/

namespace LinuxLoader
open Spec

theorem readBE_congr {f g : Nat → UInt8} {x y n : Nat} (h : ∀ i, i < n → f (x + i) = g (y + i)) :
    readBE f x n = readBE g y n := by
  induction n generalizing x y with
  | zero => rfl
  | succ n ih =>
    rw [readBE, readBE, ih (x := x + 1) (y := y + 1) fun i hi => by
      have := h (i + 1) (by omega)
      rwa [show x + (i + 1) = x + 1 + i by omega, show y + (i + 1) = y + 1 + i by omega] at this]
    have := h 0 (by omega)
    rw [Nat.add_zero, Nat.add_zero] at this
    rw [this]

theorem fdtSeen_holds {f : Nat → UInt8} {a : Nat} {blob : List UInt8} (h : Holds f a blob)
    (hl : 8 ≤ blob.length) (ht : fdtTotal blob ≤ blob.length) :
    fdtSeen f a = blob.take (fdtTotal blob) := by
  have hb : ∀ i, i < blob.length → f (a + i) = (blob[i]?).getD 0 := by
    intro i hi
    rw [List.getElem?_eq_getElem hi]
    exact h i _ (List.getElem?_eq_getElem hi)
  have e : readBE f (a + 4) 4 = fdtTotal blob := by
    refine readBE_congr fun i hi => ?_
    rw [Nat.add_assoc]; exact hb _ (by omega)
  unfold fdtSeen
  rw [e]
  apply List.ext_getElem?
  intro i
  rw [List.getElem?_map, List.getElem?_take]
  by_cases hi : i < fdtTotal blob
  · rw [List.getElem?_range hi, if_pos hi, List.getElem?_eq_getElem (by omega)]
    exact congrArg some (h i _ (List.getElem?_eq_getElem (by omega)))
  · rw [if_neg hi, List.getElem?_eq_none (by simpa using hi)]; rfl

/-- In a successful sequence every call succeeds. -/
theorem bootRun_exec {steps : List BootStep} {m : Mem} (hok : (bootRun steps m).2.1 = true)
    {st : BootStep} (hst : st ∈ steps) : ∃ m', (st.exec m').1 = true := by
  induction steps generalizing m with
  | nil => cases hst
  | cons s t ih =>
    rw [bootRun] at hok
    rcases hx : s.exec m with ⟨b, m'⟩
    rw [hx] at hok
    cases b with
    | false => cases hok
    | true =>
      rcases List.mem_cons.1 hst with rfl | hst
      · exact ⟨m, by rw [hx]⟩
      · exact ih (m := m') hok hst

/-! ## C79 -/

/-- **C79.** An arm64 or riscv64 guest. A VMM makes any sequence of calls, in any order, on pairwise
disjoint parts of memory, that all succeed. Among them are: loading an `Image`, with result `r`; putting
a device tree blob at `da`, with `load_dtb` or with the FDT configurator. Then the guest entered at
`r.kernelLoad` finds there the complete image with the magic number of its architecture, at the distance
from a 2 MiB aligned base that the boot protocol demands, and at `da` the device tree; a blob put
there with `load_dtb` has at most 2 MiB. -/
theorem C79_image_guest (steps : List BootStep) (had : ∀ st ∈ steps, st.Admissible) (m : Mem)
    (hw : m.WF) (hdis : steps.Pairwise BootStep.Disjoint) (hok : (bootRun steps m).2.1 = true)
    -- the kernel
    (arch : PeArch) (rd : Reader) (koff highmem : Option GuestAddr)
    (hkernel : .pe arch rd koff highmem ∈ steps)
    (m₀ : Mem) (r : LoadResult) (hres : (peLoad arch koff highmem ⟨rd, m₀⟩).1 = .ok r)
    -- the device tree
    (da : GuestAddr) (blob : List UInt8)
    (hdtb : (∃ drd, drd.data = blob ∧ .dtb drd da ∈ steps) ∨ .fdt (BootParams.new blob da) ∈ steps)
    (hblob : 8 ≤ blob.length ∧ fdtTotal blob ≤ blob.length) :
    let f := (bootRun steps m).2.2.data
    Holds f r.kernelLoad rd.data ∧ imageMagicOk arch f r.kernelLoad ∧
    (∃ base, base % 0x200000 = 0 ∧ r.kernelLoad = base + imageTextOffset arch f r.kernelLoad) ∧
    fdtSeen f da.toNat = blob.take (fdtTotal blob) ∧
    ∀ drd, .dtb drd da ∈ steps → drd.data.length ≤ 0x200000 := by
  intro f
  have hr' : peLoad arch koff highmem ⟨rd, m₀⟩ = (.ok r, (peLoad arch koff highmem ⟨rd, m₀⟩).2) :=
    Prod.ext hres rfl
  obtain ⟨-, -, hload, -⟩ := C51_pe_image_in_place hr'
  simp only at hload
  have hrec : ¬ (rd.data.length < 64 ∨ ¬ PeMagicOk arch rd.data ∨
      ∃ k, koff = some k ∧ k.toNat % 0x200000 ≠ 0) := by
    intro hbad
    obtain ⟨⟨e, he⟩, -⟩ := C52_pe_rejects (highmem := highmem) (s := ⟨rd, m₀⟩) hbad
    rw [hres] at he; cases he
  simp only [not_or] at hrec
  obtain ⟨h64, hmag, hal⟩ := hrec
  have hk : Holds f (peAddress arch rd.data koff) rd.data :=
    single_piece had hw hdis hok hkernel rfl
  have hka : peAddress arch rd.data koff = r.kernelLoad := hload.symm
  rw [hka] at hk
  have r8 : readLE f (r.kernelLoad + 8) 8 = leField rd.data 8 8 := readLE_field hk (by omega)
  have r16 : readLE f (r.kernelLoad + 16) 8 = leField rd.data 16 8 := readLE_field hk (by omega)
  refine ⟨hk, ?_, ⟨koffBase koff, ?_, ?_⟩, ?_, ?_⟩
  · have hmag' := Classical.byContradiction hmag
    unfold PeMagicOk at hmag'
    unfold imageMagicOk
    have hsub : SubAt rd.data 56 ((rd.data.drop 56).take 4) := by
      intro j x hx
      rw [List.getElem?_take] at hx
      split at hx
      · rw [List.getElem?_drop] at hx; exact hx
      · cases hx
    have := holds_subAt hk hsub
    rw [hmag'] at this
    exact this
  · cases koff with
    | none => rfl
    | some k => exact Classical.byContradiction fun hn => hal ⟨k, rfl, hn⟩
  · unfold imageTextOffset
    rw [r8, r16]
    exact hload
  rotate_left
  · intro drd hd
    obtain ⟨m', hm'⟩ := bootRun_exec hok hd
    rcases hx : loadDtb da ⟨drd, m'⟩ with ⟨res, s'⟩
    simp only [BootStep.exec, hx] at hm'
    cases res with
    | ok u => exact (C53_dtb_in_place hx).1
    | err e => cases hm'
    | panic => cases hm'
  · refine fdtSeen_holds ?_ hblob.1 hblob.2
    rcases hdtb with ⟨drd, rfl, hd⟩ | hd
    · exact single_piece had hw hdis hok hd rfl
    · exact single_piece had hw hdis hok hd rfl

/-- **C79 (refuted).** arm64 demands that the blob is 8-byte aligned and at most 2 MiB in size. The
alignment is checked neither by `load_dtb` nor by the FDT configurator, and the configurator does not
check the size. -/
theorem C79_blob_unchecked :
    (∃ (a : GuestAddr) (s : LS), a.toNat % 8 ≠ 0 ∧ (loadDtb a s).1 = .ok ()) ∧
    (∃ (p : BootParams) (m : Mem), p.headerStart.toNat % 8 ≠ 0 ∧ (fdtWrite p m).1 = .ok ()) ∧
    ∃ (p : BootParams) (m : Mem), m.WF ∧ 0x200000 < p.header.length ∧ (fdtWrite p m).1 = .ok () := by
  obtain ⟨blob, hb⟩ : ∃ b : List UInt8, b.length = 0x200001 :=
    ⟨List.replicate 0x200001 0, List.length_replicate⟩
  have hwf : Mem.WF ⟨[⟨0, 0x400000⟩], fun _ => 0, true⟩ := by
    refine ⟨?_, .cons (fun _ h => nomatch h) .nil⟩
    intro r hr
    rw [List.mem_singleton] at hr
    subst hr
    decide
  refine ⟨⟨0x11, ⟨.cursor [0xd0, 0x0d], peMem⟩, by decide +kernel⟩,
    ⟨BootParams.new [0xd0, 0x0d] 0x11, peMem, by decide +kernel⟩,
    BootParams.new blob 0, _, hwf, ?_, (C30_fdt _ _ hwf).2.1.2 ?_⟩
  · show 0x200000 < blob.length
    omega
  · intro x hx
    have h2 : x < 0 + (blob.length + 1) := hx.2
    simp only [Mem.mapped, List.any_cons, List.any_nil, Bool.or_false, Bool.and_eq_true,
      decide_eq_true_eq]
    omega

/-! ## C80 -/

/-- **C80.** `kernel_end` is documented as the place for a device tree or initrd adjacent to the kernel.
For an `Image` the memory from there on is free if and only if the image size in its header (which
includes uninitialised data) does not exceed the size of the file. -/
theorem C80_image_adjacent {arch : PeArch} {koff highmem : Option GuestAddr} {s s' : LS}
    {r : LoadResult} (h : peLoad arch koff highmem s = (.ok r, s')) :
    (∀ x, r.kernelEnd ≤ x → ¬ InRange r.kernelLoad (imageSize s'.mem.data r.kernelLoad) x) ↔
    leField s.rd.data 16 8 ≤ s.rd.data.length := by
  obtain ⟨hst, -, -, hend, -⟩ := C51_pe_image_in_place h
  have h64 : 64 ≤ s.rd.data.length := by
    refine Nat.le_of_not_lt fun hn => ?_
    obtain ⟨⟨e, he⟩, -⟩ := C52_pe_rejects (arch := arch) (koff := koff) (highmem := highmem) (s := s)
      (.inl hn)
    rw [h] at he; cases he
  have hsz : imageSize s'.mem.data r.kernelLoad = leField s.rd.data 16 8 :=
    readLE_field hst.2.1 (by omega)
  rw [hsz, hend]
  constructor
  · intro H
    refine Nat.le_of_not_lt fun hn => H (r.kernelLoad + s.rd.data.length) (Nat.le_refl _) ⟨by omega, by omega⟩
  · intro H x hx hin
    unfold InRange at hin
    omega

/-- **C80.** The same for bzImage kernels of protocol 2.10 or later, which need `init_size` bytes from
the load address on: the memory from `kernel_end` on is free if and only if `init_size` does not exceed
the size of the protected-mode kernel in the file. -/
theorem C80_bz_adjacent {koff highmem : Option GuestAddr} {s s' : LS} {r : LoadResult}
    (h : bzLoad koff highmem s = (.ok r, s')) :
    (∀ x, r.kernelEnd ≤ x → ¬ InRange r.kernelLoad (leField s.rd.data 0x260 4) x) ↔
    leField s.rd.data 0x260 4 ≤ (bzKernel s.rd.data).length := by
  obtain ⟨-, -, hend, -⟩ := C47_bz_kernel_in_place h
  rw [hend]
  constructor
  · intro H
    refine Nat.le_of_not_lt fun hn =>
      H (r.kernelLoad + (bzKernel s.rd.data).length) (Nat.le_refl _) ⟨by omega, by omega⟩
  · intro H x hx hin
    unfold InRange at hin
    omega

/-- **C80 (refuted).** A device tree loaded by `load_dtb` at the next 8-byte boundary behind
`kernel_end`, which the documentation suggests, can lie inside the memory that the kernel uses for its
uninitialised data. -/
theorem C80_adjacent_refuted : ∃ (s : LS) (r : LoadResult) (da : GuestAddr) (drd : Reader),
    (peLoad .arm64 none none s).1 = .ok r ∧ r.kernelEnd ≤ da.toNat ∧ da.toNat < r.kernelEnd + 8 ∧
    da.toNat % 8 = 0 ∧ (loadDtb da ⟨drd, (peLoad .arm64 none none s).2.mem⟩).1 = .ok () ∧
    drd.data.length = 3 ∧
    ∀ x, InRange da.toNat drd.data.length x →
      InRange r.kernelLoad (imageSize (peLoad .arm64 none none s).2.mem.data r.kernelLoad) x := by
  refine ⟨⟨.cursor (mkPe 0x10 0x80 0x644d5241), peMem⟩, ⟨0x10, 0x54, none, .ignored⟩, 0x58,
    .cursor [0xd0, 0x0d, 0xfe], by decide +kernel, by decide, by decide, by decide, by decide +kernel,
    rfl, ?_⟩
  intro x hx
  have e : imageSize (peLoad .arm64 none none
      ⟨.cursor (mkPe 0x10 0x80 0x644d5241), peMem⟩).2.mem.data 0x10 = 0x80 := by decide +kernel
  rw [e]
  have h1 : 0x58 ≤ x := hx.1
  have h2 : x < 0x58 + 3 := hx.2
  exact ⟨by show 0x10 ≤ x; omega, by show x < 0x10 + 0x80; omega⟩

/-- **C80 (refuted).** The same for a bzImage: the demo kernel needs more memory than its file has. -/
theorem C80_bz_refuted : ∃ (s : LS) (r : LoadResult), (bzLoad none none s).1 = .ok r ∧
    0x20a ≤ bzVersion s.rd.data ∧ r.kernelEnd < r.kernelLoad + leField s.rd.data 0x260 4 :=
  ⟨bzState, ⟨0x40, 0x45, some (mkBzHdr 1 0x53726448 0x20f 1 0x40), .ignored⟩, by decide +kernel⟩

/-! ## A concrete guest -/

/-- A flattened device tree header with `totalsize` 12, and 4 more bytes. -/
def demoBlob : List UInt8 := [0xd0, 0x0d, 0xfe, 0xed, 0, 0, 0, 12, 1, 2, 3, 4, 0xff]

/-- An arm64 image at 2 MiB + 0x10 and a device tree at 0x80. -/
def imageSteps : List BootStep :=
  [.dtb (.cursor demoBlob) 0x80, .pe .arm64 (.cursor (mkPe 0x10 1 0x644d5241)) (some 0x200000) none]

theorem peMem_wf : peMem.WF := by
  refine ⟨?_, ?_⟩
  · intro r hr
    simp only [peMem, List.mem_cons, List.not_mem_nil, or_false] at hr
    rcases hr with rfl | rfl <;> decide
  · refine .cons ?_ (.cons (fun _ h => nomatch h) .nil)
    intro r hr
    rw [List.mem_singleton] at hr
    subst hr
    decide

/-- It satisfies the hypotheses of C79. -/
theorem imageSteps_ok : (∀ st ∈ imageSteps, st.Admissible) ∧ peMem.WF ∧ imageSteps.Pairwise BootStep.Disjoint ∧
    (bootRun imageSteps peMem).2.1 = true ∧
    (peLoad .arm64 (some 0x200000) none ⟨.cursor (mkPe 0x10 1 0x644d5241), peMem⟩).1 =
      .ok ⟨0x200010, 0x200054, none, .ignored⟩ ∧
    8 ≤ demoBlob.length ∧ fdtTotal demoBlob = 12 := by
  refine ⟨?_, peMem_wf, ?_, by decide +kernel, by decide +kernel, by decide, by decide⟩
  · intro st hst
    simp only [imageSteps, List.mem_cons, List.not_mem_nil, or_false] at hst
    rcases hst with rfl | rfl <;> trivial
  · refine .cons ?_ (.cons (fun _ h => nomatch h) .nil)
    intro st hst
    rw [List.mem_singleton] at hst
    subst hst
    rintro x ⟨⟨q, hq, h1⟩, ⟨q', hq', h2⟩⟩
    rw [show BootStep.pieces (.dtb (.cursor demoBlob) 0x80) = [(0x80, demoBlob)] from rfl,
      List.mem_singleton] at hq
    rw [show BootStep.pieces (.pe .arm64 (.cursor (mkPe 0x10 1 0x644d5241)) (some 0x200000) none) =
      [(0x200010, mkPe 0x10 1 0x644d5241)] by decide +kernel, List.mem_singleton] at hq'
    subst hq hq'
    have hl : demoBlob.length = 13 := rfl
    unfold InRange at h1 h2
    simp only [hl] at h1 h2
    omega

example : fdtSeen (bootRun imageSteps peMem).2.2.data 0x80 = demoBlob.take 12 ∧
    imageTextOffset .arm64 (bootRun imageSteps peMem).2.2.data 0x200010 = 0x10 := by decide +kernel

example := C80_image_adjacent (ran demoPe_loads.1)

example := C80_bz_adjacent (ran demoBz_loads)

example := C79_image_guest imageSteps imageSteps_ok.1 peMem imageSteps_ok.2.1 imageSteps_ok.2.2.1
  imageSteps_ok.2.2.2.1 .arm64 (.cursor (mkPe 0x10 1 0x644d5241)) (some 0x200000) none
  (.tail _ (.head _)) peMem _ imageSteps_ok.2.2.2.2.1 0x80 demoBlob (.inl ⟨_, rfl, .head _⟩)
  ⟨by decide, by decide⟩

end LinuxLoader
