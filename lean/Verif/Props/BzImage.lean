import Verif.Lemmas.Pe
import Verif.Props.Elf

/-!
# Loading bzImage kernels (C44–C50, C54, C57)

`s` is the state before the call: image reader (contents `s.rd.data`, arbitrary position, arbitrary
schedule of I/O errors and short reads) and guest memory. `BzImage::load` reads the setup header with
one `read` whose byte count it ignores; theorems that need this read to be complete have the hypothesis
`NoShortReads`, all others hold for every reader.
-/

namespace LinuxLoader
open Spec

/-! ## Concrete images -/

/-- A setup header. -/
def mkBzHdr (sects magic version flags code32 : Nat) : List UInt8 :=
  leBytes 1 sects ++ List.replicate 16 0x11 ++ leBytes 4 magic ++ leBytes 2 version ++
    List.replicate 9 0x12 ++ leBytes 1 flags ++ List.replicate 2 0x13 ++ leBytes 4 code32 ++
    List.replicate 84 0x14

/-- An image with one setup sector and a kernel of 5 bytes. -/
def mkBz (hdr : List UInt8) : List UInt8 :=
  List.replicate 0x1f1 0 ++ hdr ++ List.replicate (1024 - 0x1f1 - 123) 0 ++ [0xb1, 0xb2, 0xb3, 0xb4, 0xb5]

/-- A valid image, default load address 0x40. -/
def demoBz : List UInt8 := mkBz (mkBzHdr 1 0x53726448 0x20f 1 0x40)

/-- The demo image at some position of a faultless reader. -/
def bzState : LS := ⟨⟨demoBz, 7, fun _ => .ok, 0⟩, elfMem⟩

theorem bzState_ff : FaultFree bzState := fun _ => rfl

theorem bzState_full : NoShortReads bzState := fun _ _ h => nomatch h

theorem demoBz_loads : (bzLoad none (some 0x30) bzState).1 =
    .ok ⟨0x40, 0x45, some (mkBzHdr 1 0x53726448 0x20f 1 0x40), .ignored⟩ := by decide +kernel

theorem demoBz_loads_offset : (bzLoad (some 0x80) (some 0x30) bzState).1 =
    .ok ⟨0x80, 0x85, some (mkBzHdr 1 0x53726448 0x20f 1 0x80), .ignored⟩ := by decide +kernel

/-! ## C46 -/

/-- **C46.** Whatever the reader does, a successful load means: `HdrS` at 0x202, protocol version at
least 2.00, the "loaded high" flag, and an image that contains all of its setup sectors. -/
theorem C46_bz_accepts {koff highmem : Option GuestAddr} {s s' : LS} {r : LoadResult}
    (h : bzLoad koff highmem s = (.ok r, s')) :
    BzMagicOk s.rd.data ∧ 0x200 ≤ bzVersion s.rd.data ∧ bzLoadflags s.rd.data % 2 = 1 ∧
    bzSetupBytes s.rd.data ≤ s.rd.data.length := by
  obtain ⟨k, -, ho, -, -⟩ := bzLoad_ok_any h
  have h1 := firstObstacle_none_iff.1 ho _ (.head _)
  have h2 := firstObstacle_none_iff.1 ho _ (.tail _ (.head _))
  simp only [not_or] at h1 h2
  obtain ⟨hm, hv, hf⟩ := h1
  have hm' : shMagic (bzBuf s.rd.data k) = 0x53726448 := Classical.byContradiction fun hn => hm hn
  refine ⟨bzBuf_magic hm', ?_, ?_, ?_⟩
  · have := bzBuf_field_le s.rd.data k 0x15 2 (by omega)
    unfold shVersion at hv
    exact Nat.le_trans (Nat.le_of_not_lt hv) this
  · rw [bzBuf_loadflags hf] at hf
    omega
  · rw [bzBuf_sects hm'] at h2
    exact Nat.le_of_not_lt h2

example := C46_bz_accepts (ran demoBz_loads)

/-- An image that `BzImage::load` must not accept. -/
def BzInvalid (img : List UInt8) : Prop :=
  ¬ BzMagicOk img ∨ bzVersion img < 0x200 ∨ bzLoadflags img % 2 = 0 ∨ img.length < bzSetupBytes img

/-- **C46.** Whatever the reader does, loading an invalid image is an error and leaves guest memory
unchanged. -/
theorem C46_bz_rejects {koff highmem : Option GuestAddr} {s : LS} (hi : BzInvalid s.rd.data) :
    (∃ e, (bzLoad koff highmem s).1 = .err e) ∧ (bzLoad koff highmem s).2.mem = s.mem := by
  rcases bzLoad_head koff highmem s with ⟨e, s'', he, hm, -⟩ | ⟨k, s₁, hk, hd, hm, hs, he⟩
  · rw [he]; exact ⟨⟨e, rfl⟩, hm⟩
  · rw [he]
    have hbad : shMagic (bzBuf s.rd.data k) ≠ 0x53726448 ∨ shVersion (bzBuf s.rd.data k) < 0x200 ∨
        shLoadflags (bzBuf s.rd.data k) % 2 = 0 ∨ s.rd.data.length <
          ((if shSetupSects (bzBuf s.rd.data k) = 0 then 4 else shSetupSects (bzBuf s.rd.data k)) + 1)
            * 512 := by
      by_cases h1 : shMagic (bzBuf s.rd.data k) = 0x53726448
      · rcases hi with hi | hi | hi | hi
        · exact absurd (bzBuf_magic h1) hi
        · refine .inr (.inl ?_)
          exact Nat.lt_of_le_of_lt (bzBuf_field_le s.rd.data k 0x15 2 (by omega)) hi
        · refine .inr (.inr (.inl ?_))
          refine Classical.byContradiction fun hn => ?_
          rw [bzBuf_loadflags hn] at hn
          exact hn hi
        · refine .inr (.inr (.inr ?_))
          rw [bzBuf_sects h1]
          exact hi
      · exact .inl h1
    unfold bzRest
    rw [bzSetupSize_eq (shSetupSects (bzBuf s.rd.data k)) (leField_lt _ 0 1)]
    by_cases h1 : shMagic (bzBuf s.rd.data k) = 0x53726448
    · rw [LM.bind_ok (a := ()) (s' := s₁) (by rw [h1]; rfl)]
      by_cases h2 : shVersion (bzBuf s.rd.data k) < 0x200 ∨ shLoadflags (bzBuf s.rd.data k) % 2 = 0
      · rw [LM.bind_err (e := .bz .invalidBzImage) (s' := s₁) (by
          rw [Nat.and_one_is_mod]
          rw [show (decide (shVersion (bzBuf s.rd.data k) < 512) ||
            shLoadflags (bzBuf s.rd.data k) % 2 == 0) = true by simpa using h2]
          rfl)]
        exact ⟨⟨_, rfl⟩, hm⟩
      · rw [LM.bind_ok (a := ()) (s' := s₁) (by
          rw [Nat.and_one_is_mod]
          rw [show (decide (shVersion (bzBuf s.rd.data k) < 512) ||
            shLoadflags (bzBuf s.rd.data k) % 2 == 0) = false by
            rw [not_or] at h2
            simp only [Bool.or_eq_false_iff, decide_eq_false_iff_not, beq_eq_false_iff_ne, ne_eq]
            exact h2]
          rfl)]
        have h3 : ¬ ((if shSetupSects (bzBuf s.rd.data k) = 0 then 4
            else shSetupSects (bzBuf s.rd.data k)) + 1) * 512 ≤ s.rd.data.length := by
          rcases hbad with hb | hb | hb | hb
          · exact absurd h1 hb
          · exact absurd (.inl hb) h2
          · exact absurd (.inr hb) h2
          · omega
        rw [LM.okOr_some, LM.bind_ok (LM.pure'_apply _ s₁),
          LM.bind_err (e := .bz .underflow) (s' := s₁) (by
            unfold checkedSub; rw [if_neg h3]; rfl)]
        exact ⟨⟨_, rfl⟩, hm⟩
    · rw [LM.bind_err (e := .bz .invalidBzImage) (s' := s₁) (by
        rw [show (shMagic (bzBuf s.rd.data k) == 0x53726448) = false by simpa using h1]; rfl)]
      exact ⟨⟨_, rfl⟩, hm⟩

example := C46_bz_rejects (koff := some 0x80) (highmem := none)
  (s := ⟨.cursor (mkBz (mkBzHdr 1 0x53726448 0x1ff 1 0x40)), elfMem⟩) (.inr (.inl (by decide +kernel)))

/-- **C46.** With a faultless reader the error says what is wrong. -/
theorem C46_bz_error_kind {koff highmem : Option GuestAddr} {s : LS} (hff : FaultFree s) :
    (¬ BzMagicOk s.rd.data ∨ bzVersion s.rd.data < 0x200 ∨ bzLoadflags s.rd.data % 2 = 0 →
      (bzLoad koff highmem s).1 = .err (.bz .invalidBzImage)) ∧
    (BzMagicOk s.rd.data → 0x200 ≤ bzVersion s.rd.data → bzLoadflags s.rd.data % 2 = 1 →
      s.rd.data.length < bzSetupBytes s.rd.data →
      (bzLoad koff highmem s).1 = .err (.bz .underflow)) := by
  rw [faultFree_eq_clean hff]
  rcases bzLoad_clean s.rd.data koff highmem s.rd.pos s.rd.clock s.mem with
    ⟨ho, p', c', he⟩ | ⟨e, s', he, ho, -⟩
  · have h1 := firstObstacle_none_iff.1 ho _ (.head _)
    have h2 := firstObstacle_none_iff.1 ho _ (.tail _ (.head _))
    exact ⟨fun h => absurd h h1, fun _ _ _ h => absurd h h2⟩
  · rw [he]
    refine ⟨fun h => ?_, fun a b c d => ?_⟩
    · cases firstObstacle_unique ho (.here h); rfl
    · have : FirstObstacle (bzObstacles s.rd.data koff highmem s.mem) (some (.bz .underflow)) := by
        refine .later ?_ (.here d)
        rintro (h | h | h)
        · exact h a
        · exact absurd b (Nat.not_le_of_lt h)
        · exact absurd (c.symm.trans h) (by decide)
      cases firstObstacle_unique ho this; rfl

example := C46_bz_error_kind (koff := none) (highmem := some 0x30) (s := bzState) bzState_ff

/-- Images with a wrong magic number, an old version, not loaded high, and truncated. -/
example : (bzLoad none none ⟨.cursor (mkBz (mkBzHdr 1 0x53726449 0x20f 1 0x40)), elfMem⟩).1 =
      .err (.bz .invalidBzImage) ∧
    (bzLoad none none ⟨.cursor (mkBz (mkBzHdr 1 0x53726448 0x1ff 1 0x40)), elfMem⟩).1 =
      .err (.bz .invalidBzImage) ∧
    (bzLoad none none ⟨.cursor (mkBz (mkBzHdr 1 0x53726448 0x200 0xfe 0x40)), elfMem⟩).1 =
      .err (.bz .invalidBzImage) ∧
    (bzLoad none none ⟨.cursor (mkBz (mkBzHdr 0 0x53726448 0x200 1 0x40)), elfMem⟩).1 =
      .err (.bz .underflow) := by decide +kernel

/-! ## C47 -/

/-- **C47.** Whatever the reader does, after a successful load guest memory holds exactly the
protected-mode kernel at `kernel_load` and is otherwise unchanged, and `kernel_end` is the end of it;
`kernel_load` is the given offset. -/
theorem C47_bz_kernel_in_place {koff highmem : Option GuestAddr} {s s' : LS} {r : LoadResult}
    (h : bzLoad koff highmem s = (.ok r, s')) :
    Stored s.mem s'.mem r.kernelLoad (bzKernel s.rd.data) ∧
    Mapped s.mem r.kernelLoad (bzKernel s.rd.data).length ∧
    r.kernelEnd = r.kernelLoad + (bzKernel s.rd.data).length ∧ r.kernelEnd < U64 ∧
    r.pvh = .ignored ∧ ∀ k, koff = some k → r.kernelLoad = k.toNat := by
  obtain ⟨k, -, ho, hr, hm⟩ := bzLoad_ok_any h
  have h1 := firstObstacle_none_iff.1 ho _ (.head _)
  have h4 := firstObstacle_none_iff.1 ho _ (.tail _ (.tail _ (.tail _ (.head _))))
  have h5 := firstObstacle_none_iff.1 ho _ (.tail _ (.tail _ (.tail _ (.tail _ (.head _)))))
  simp only [not_or] at h1 h4 h5
  have hm' : shMagic (bzBuf s.rd.data k) = 0x53726448 := Classical.byContradiction fun hn => h1.1 hn
  have hkl : s.rd.data.length - ((if bzSetupSects s.rd.data = 0 then 4 else
      bzSetupSects s.rd.data) + 1) * 512 = (bzKernel s.rd.data).length := by
    unfold bzKernel bzSetupBytes; rw [List.length_drop]
  rw [bzBuf_sects hm', hkl] at h4 h5
  subst hr
  refine ⟨?_, (Classical.byContradiction h4 : Accessible _ _ _).1, rfl, Nat.lt_of_not_le h5, rfl, ?_⟩
  · rw [hm]; exact Mem.stored_store _ _ _
  · rintro q rfl; rfl

example := C47_bz_kernel_in_place (ran demoBz_loads_offset)

/-- **C47.** If the header is read in one piece, `kernel_load` without a given offset is the image's
`code32_start`. -/
theorem C47_bz_default_address {highmem : Option GuestAddr} {s s' : LS} {r : LoadResult}
    (hns : NoShortReads s) (h : bzLoad none highmem s = (.ok r, s')) :
    r.kernelLoad = bzCode32 s.rd.data := by
  obtain ⟨-, hr, -⟩ := bzLoad_ok hns h
  rw [hr]
  rfl

example := C47_bz_default_address bzState_full (ran demoBz_loads)

example : bzKernel demoBz = [0xb1, 0xb2, 0xb3, 0xb4, 0xb5] ∧ bzCode32 demoBz = 0x40 ∧
    (List.range 7).map ((bzLoad none none bzState).2.mem.data ∘ (0x3f + ·)) =
      [0, 0xb1, 0xb2, 0xb3, 0xb4, 0xb5, 0] := by decide +kernel

/-! ## C48, C49, C57 -/

theorem setCode32_get (h : List UInt8) (v i : Nat) (hl : h.length = 123) (hi : i < 0x23 ∨ 0x27 ≤ i) :
    (setCode32 h v)[i]? = h[i]? := by
  unfold setCode32
  have h1 : (h.take 0x23).length = 0x23 := by rw [List.length_take]; omega
  rcases hi with hi | hi
  · rw [List.append_assoc, List.getElem?_append_left (by omega), List.getElem?_take, if_pos hi]
  · rw [List.getElem?_append_right (by rw [List.length_append, leBytes_length]; omega),
      List.length_append, leBytes_length, h1, List.getElem?_drop]
    congr 1
    omega

theorem setCode32_field (h : List UInt8) (v : Nat) (hl : h.length = 123) :
    leField (setCode32 h v) 0x23 4 = v % 0x100000000 := by
  unfold setCode32 leField
  have h1 : (h.take 0x23).length = 0x23 := by rw [List.length_take]; omega
  rw [List.append_assoc, List.drop_append_of_le_length (by omega), List.drop_of_length_le (by omega),
    List.nil_append, List.take_append_of_le_length (by simp), List.take_of_length_le (by simp),
    leNat_leBytes]

/-- **C48.** The returned setup header is the image's, byte by byte, except for the four bytes of
`code32_start`; this is the low half of `kernel_load`. -/
theorem C48_bz_setup_header {koff highmem : Option GuestAddr} {s s' : LS} {r : LoadResult}
    (hns : NoShortReads s) (h : bzLoad koff highmem s = (.ok r, s')) :
    ∃ hdr, r.setupHeader = some hdr ∧ hdr.length = 123 ∧
      (∀ i, i < 123 → (i < 0x23 ∨ 0x27 ≤ i) → hdr[i]? = s.rd.data[0x1f1 + i]?) ∧
      leField hdr 0x23 4 = r.kernelLoad % 0x100000000 := by
  obtain ⟨ho, hr, -⟩ := bzLoad_ok hns h
  have h2 : ¬ s.rd.data.length < bzSetupBytes s.rd.data :=
    firstObstacle_none_iff.1 ho _ (.tail _ (.head _))
  have hb := bzSetupBytes_ge s.rd.data
  have hl : (bzHeader s.rd.data).length = 123 := by
    unfold bzHeader
    rw [List.length_take, List.length_drop]; omega
  subst hr
  refine ⟨_, rfl, ?_, fun i hi hi' => ?_, ?_⟩
  · unfold setCode32
    simp only [List.length_append, List.length_take, List.length_drop, leBytes_length, hl]
    omega
  · rw [setCode32_get _ _ _ hl hi']
    unfold bzHeader
    rw [List.getElem?_take, if_pos hi, List.getElem?_drop]
  · exact setCode32_field _ _ hl

example := C48_bz_setup_header bzState_full (ran demoBz_loads_offset)

/-- **C49.** If the kernel is loaded below 4 GiB then `code32_start` of the returned header is the
load address. -/
theorem C49_code32_below_4G {koff highmem : Option GuestAddr} {s s' : LS} {r : LoadResult}
    (hns : NoShortReads s) (h : bzLoad koff highmem s = (.ok r, s'))
    (hlow : r.kernelLoad < 0x100000000) :
    ∃ hdr, r.setupHeader = some hdr ∧ leField hdr 0x23 4 = r.kernelLoad := by
  obtain ⟨hdr, h1, -, -, h2⟩ := C48_bz_setup_header hns h
  exact ⟨hdr, h1, by rw [h2, Nat.mod_eq_of_lt hlow]⟩

example := C49_code32_below_4G bzState_full (ran demoBz_loads_offset) (by decide)

/-- **C49 (refuted).** For a `kernel_offset` of 4 GiB or more `code32_start` is silently truncated. -/
theorem C49_code32_refuted : ∃ (k : GuestAddr) (s : LS) (r : LoadResult) (hdr : List UInt8),
    FaultFree s ∧ s.mem.WF ∧ (bzLoad (some k) none s).1 = .ok r ∧ r.kernelLoad = k.toNat ∧
    r.setupHeader = some hdr ∧ leField hdr 0x23 4 ≠ r.kernelLoad := by
  refine ⟨0x100000040, ⟨.cursor demoBz, ⟨[⟨0x100000000, 256⟩], fun _ => 0, true⟩⟩,
    ⟨0x100000040, 0x100000045, some (mkBzHdr 1 0x53726448 0x20f 1 0x40), .ignored⟩,
    mkBzHdr 1 0x53726448 0x20f 1 0x40, fun _ => rfl, ⟨?_, ?_⟩, by decide +kernel, by decide,
    rfl, by decide +kernel⟩
  · intro r hr
    simp only [List.mem_singleton] at hr
    subst hr
    decide
  · exact List.pairwise_singleton _ _

/-- **C57 (refuted).** A short read of the header is not detected: the load succeeds, at the wrong
address and with a wrong setup header. -/
theorem C57_short_read_refuted : ∃ (s : LS) (r : LoadResult) (hdr : List UInt8),
    s.mem.WF ∧ (∀ i, s.rd.sched i = .ok ∨ ∃ k, s.rd.sched i = .short k) ∧
    (bzLoad none none s).1 = .ok r ∧ r.kernelLoad ≠ bzCode32 s.rd.data ∧
    r.setupHeader = some hdr ∧ hdr[0x30]? ≠ s.rd.data[0x1f1 + 0x30]? := by
  refine ⟨⟨⟨demoBz, 0, fun i => if i = 2 then .short 0x21 else .ok, 0⟩, elfMem⟩,
    ⟨0, 5, some ((mkBzHdr 1 0x53726448 0x20f 1 0x40).take 0x21 ++ List.replicate 90 0), .ignored⟩,
    (mkBzHdr 1 0x53726448 0x20f 1 0x40).take 0x21 ++ List.replicate 90 0, ⟨?_, ?_⟩, ?_,
    by decide +kernel, by decide +kernel, rfl, by decide +kernel⟩
  · intro r hr
    simp only [elfMem, List.mem_singleton] at hr
    subst hr
    decide
  · exact List.pairwise_singleton _ _
  · intro i
    by_cases h : i = 2
    · exact .inr ⟨0x21, if_pos h⟩
    · exact .inl (if_neg h)

/-- **C57.** If the reader delivers the header in one piece, as files and cursors do, a successful
load reports the right address and the image's header. -/
theorem C57_full_read {koff highmem : Option GuestAddr} {s s' : LS} {r : LoadResult}
    (hns : NoShortReads s) (h : bzLoad koff highmem s = (.ok r, s')) :
    r.kernelLoad = bzAddress s.rd.data koff ∧
    ∃ hdr, r.setupHeader = some hdr ∧ hdr.length = 123 ∧
      ∀ i, i < 123 → (i < 0x23 ∨ 0x27 ≤ i) → hdr[i]? = s.rd.data[0x1f1 + i]? := by
  obtain ⟨hdr, h1, h2, h3, -⟩ := C48_bz_setup_header hns h
  obtain ⟨-, hr, -⟩ := bzLoad_ok hns h
  exact ⟨by rw [hr], hdr, h1, h2, h3⟩

example := C57_full_read bzState_full (ran demoBz_loads_offset)

/-! ## C50 -/

/-- **C50.** Whatever the reader does, a successful load with `highmem_start_address` `h` means that
the image's default address is not below `h`. -/
theorem C50_bz_highmem {koff : Option GuestAddr} {h : GuestAddr} {s s' : LS} {r : LoadResult}
    (hok : bzLoad koff (some h) s = (.ok r, s')) : h.toNat ≤ bzCode32 s.rd.data := by
  obtain ⟨k, -, ho, -, -⟩ := bzLoad_ok_any hok
  have h3 := firstObstacle_none_iff.1 ho _ (.tail _ (.tail _ (.head _)))
  refine Nat.le_of_not_lt fun hn => h3 ⟨h, rfl, ?_⟩
  exact Nat.lt_of_le_of_lt (bzBuf_field_le s.rd.data k 0x23 4 (by omega)) hn

example := C50_bz_highmem (ran demoBz_loads_offset)

/-- **C50.** Without `kernel_offset` the kernel is loaded at or above `h`, whatever the reader does. -/
theorem C50_bz_loaded_high {h : GuestAddr} {s s' : LS} {r : LoadResult}
    (hok : bzLoad none (some h) s = (.ok r, s')) : h.toNat ≤ r.kernelLoad := by
  obtain ⟨k, -, ho, hr, -⟩ := bzLoad_ok_any hok
  have h3 := firstObstacle_none_iff.1 ho _ (.tail _ (.tail _ (.head _)))
  rw [hr]
  exact Nat.le_of_not_lt fun hn => h3 ⟨h, rfl, hn⟩

example := C50_bz_loaded_high (ran demoBz_loads)

/-- **C50.** An otherwise valid image with a default address below `h` is rejected, with
`InvalidKernelStartAddress` and without side effects. -/
theorem C50_bz_below_highmem {koff : Option GuestAddr} {h : GuestAddr} {s : LS} (hff : FaultFree s)
    (hv : ¬ BzInvalid s.rd.data) (hlow : bzCode32 s.rd.data < h.toNat) :
    (bzLoad koff (some h) s).1 = .err .invalidKernelStartAddress ∧
    (bzLoad koff (some h) s).2.mem = s.mem := by
  have ho : FirstObstacle (bzObstacles s.rd.data koff (some h) s.mem)
      (some .invalidKernelStartAddress) := by
    refine .later (fun hn => hv ?_) (.later (fun hn => hv ?_) (.here ⟨h, rfl, hlow⟩))
    · rcases hn with hn | hn | hn
      · exact .inl hn
      · exact .inr (.inl hn)
      · exact .inr (.inr (.inl hn))
    · exact .inr (.inr (.inr hn))
  rw [faultFree_eq_clean hff]
  rcases bzLoad_clean s.rd.data koff (some h) s.rd.pos s.rd.clock s.mem with
    ⟨ho', -⟩ | ⟨e, s', he, ho', hm⟩
  · exact nomatch firstObstacle_unique ho ho'
  · cases firstObstacle_unique ho ho'
    rw [he]
    exact ⟨rfl, hm (by simp) (by simp)⟩

/-- The demo image is not invalid. -/
theorem demoBz_valid : ¬ BzInvalid demoBz := by
  have h : BzMagicOk demoBz ∧ 0x200 ≤ bzVersion demoBz ∧ bzLoadflags demoBz % 2 = 1 ∧
    bzSetupBytes demoBz ≤ demoBz.length := by decide +kernel
  unfold BzInvalid
  rintro (h' | h' | h' | h')
  · exact h' h.1
  · exact absurd h.2.1 (Nat.not_le_of_lt h')
  · exact absurd (h.2.2.1.symm.trans h') (by decide)
  · exact absurd h.2.2.2 (Nat.not_le_of_lt h')

example := C50_bz_below_highmem (koff := some 0x80) (h := 0x41) (s := bzState) bzState_ff
  demoBz_valid (by decide +kernel)

/-- **C50 (refuted).** With a `kernel_offset` the kernel can be loaded below `h`. -/
theorem C50_bz_highmem_refuted : ∃ (k h : GuestAddr) (s : LS) (r : LoadResult), FaultFree s ∧
    (bzLoad (some k) (some h) s).1 = .ok r ∧ r.kernelLoad < h.toNat :=
  ⟨0x10, 0x40, bzState, ⟨0x10, 0x15, some (mkBzHdr 1 0x53726448 0x20f 1 0x10), .ignored⟩,
    fun _ => rfl, by decide +kernel, by decide⟩

/-- The demo image with high memory at its default address and above. -/
example : (bzLoad none (some 0x40) bzState).1.isOk = true ∧
    (bzLoad none (some 0x41) bzState).1 = .err .invalidKernelStartAddress ∧
    (bzLoad (some 0x80) (some 0x41) bzState).1 = .err .invalidKernelStartAddress := by decide +kernel

/-! ## C44, C45 -/

theorem bzLoad_from (koff highmem : Option GuestAddr) (s : LS) (h : NoShortReads s ∨ koff ≠ none) :
    SameLayout s.mem (bzLoad koff highmem s).2.mem ∧
    FromPieces (fun x => ¬ NoScatter s ∧ InRange (bzAddress s.rd.data koff) (bzKernel s.rd.data).length x)
      [(bzAddress s.rd.data koff, bzKernel s.rd.data)] s.mem (bzLoad koff highmem s).2.mem := by
  rcases bzLoad_head koff highmem s with ⟨e, s'', he, hm, -⟩ | ⟨k, s₁, hk, hd, hm, hs, he⟩
  · rw [he]
    simp only
    rw [hm]
    exact ⟨⟨rfl, rfl⟩, .refl _ _ _⟩
  · rw [he]
    have hlay := (good_bzRest koff highmem s.rd.data.length (bzBuf s.rd.data k)).layout s₁
    rw [hm] at hlay
    refine ⟨hlay, ?_⟩
    rcases bzRest_from koff highmem s.rd.data.length (bzBuf s.rd.data k) s₁ with h0 | ⟨hmg, h0⟩
    · rw [h0, hm]; exact .refl _ _ _
    · have haddr : bzMemOffset koff (shCode32 (bzBuf s.rd.data k)) = bzAddress s.rd.data koff := by
        rcases h with h | h
        · rw [hk h, (bzBuf_full s.rd.data).2.2.2.1]; rfl
        · cases koff with
          | none => exact absurd rfl h
          | some q => rfl
      rw [haddr, bzBuf_sects hmg, hd] at h0
      have hn : NoScatter s₁ = NoScatter s := by unfold NoScatter; rw [hs]
      have hl : s.rd.data.length - bzSetupBytes s.rd.data = (bzKernel s.rd.data).length := by
        unfold bzKernel; rw [List.length_drop]
      rw [hm, hn] at h0
      unfold bzSetupBytes at hl
      rw [hl] at h0
      exact h0

/-- **C44 (bzImage).** Whatever happens — success, an error, an I/O fault at any point — every byte of
guest memory is the old one or the one that the kernel has for this address. The target address is
that of the image if it is given as `kernel_offset` or the header has been read in one piece. -/
theorem C44_bz_bytes (koff highmem : Option GuestAddr) (s : LS) (h : NoShortReads s ∨ koff ≠ none)
    (hns : NoScatter s) :
    SameLayout s.mem (bzLoad koff highmem s).2.mem ∧
    ∀ x, (bzLoad koff highmem s).2.mem.data x = s.mem.data x ∨
      (bzAddress s.rd.data koff ≤ x ∧ (bzKernel s.rd.data)[x - bzAddress s.rd.data koff]? =
          some ((bzLoad koff highmem s).2.mem.data x)) := by
  obtain ⟨h1, h2⟩ := bzLoad_from koff highmem s h
  refine ⟨h1, fun x => ?_⟩
  rcases h2 x with h | ⟨q, hq, h3, h4⟩ | h
  · exact .inl h
  · simp only [List.mem_singleton] at hq
    subst hq
    exact .inr ⟨h3, h4⟩
  · exact absurd hns h.1

example := C44_bz_bytes none none ⟨⟨demoBz, 7, fun i => if i = 4 then .fail 3 else .ok, 0⟩, elfMem⟩
  (.inl fun i k h => by simp only at h; split at h <;> cases h)
  (fun i w h => by simp only at h; split at h <;> cases h)

/-- **C44 (bzImage).** Bytes outside the target range are unchanged, whatever happens. -/
theorem C44_bz_frame (koff highmem : Option GuestAddr) (s : LS) (h : NoShortReads s ∨ koff ≠ none)
    (x : Nat) (hx : ¬ InRange (bzAddress s.rd.data koff) (bzKernel s.rd.data).length x) :
    (bzLoad koff highmem s).2.mem.data x = s.mem.data x := by
  rcases (bzLoad_from koff highmem s h).2 x with h1 | ⟨q, hq, h1, h2⟩ | h1
  · exact h1
  · simp only [List.mem_singleton] at hq
    subst hq
    exact absurd ⟨h1, by have := (List.getElem?_eq_some_iff.1 h2).1; simp only at this ⊢; omega⟩ hx
  · exact absurd h1.2 hx

example := C44_bz_frame (some 0x80) none bzState (.inr (by decide)) 0x7f
  (fun h => absurd h.1 (by decide +kernel))

/-- **C44 (bzImage, refuted for short reads).** Without `kernel_offset`, a short read of the header
followed by an I/O error leaves bytes of the kernel outside the target range. -/
theorem C44_bz_short_read_refuted : ∃ (s : LS) (x : Nat) (e : LoadError),
    (bzLoad none none s).1 = .err e ∧
    ¬ InRange (bzAddress s.rd.data none) (bzKernel s.rd.data).length x ∧
    (bzLoad none none s).2.mem.data x ≠ s.mem.data x :=
  ⟨⟨⟨demoBz, 0, fun i => if i = 2 then .short 0x21 else if i = 4 then .fail 3 else .ok, 0⟩, elfMem⟩,
    1, .bz .readBzImageCompressedKernel, by decide +kernel, by decide +kernel, by decide +kernel⟩

/-- A load of the demo image that fails after three bytes. -/
example : NoScatter ⟨⟨demoBz, 7, fun i => if i = 4 then .fail 3 else .ok, 0⟩, elfMem⟩ :=
  fun i w h => by simp only at h; split at h <;> cases h

example : let r := bzLoad none none ⟨⟨demoBz, 7, fun i => if i = 4 then .fail 3 else .ok, 0⟩, elfMem⟩
    r.1 = .err (.bz .readBzImageCompressedKernel) ∧
    (List.range 5).map (fun i => r.2.mem.data (0x40 + i)) = [0xb1, 0xb2, 0xb3, 0, 0] := by
  decide +kernel

/-- **C45 (bzImage).** The position of the reader before the call does not matter. -/
theorem C45_bz_position_irrelevant (koff highmem : Option GuestAddr) (s t : LS)
    (hd : t.rd.data = s.rd.data) (hs : t.rd.sched = s.rd.sched) (hc : t.rd.clock = s.rd.clock)
    (hm : t.mem = s.mem) :
    (bzLoad koff highmem t).1 = (bzLoad koff highmem s).1 ∧
    (bzLoad koff highmem t).2.mem = (bzLoad koff highmem s).2.mem := by
  rcases s with ⟨⟨d, p, sch, c⟩, m⟩
  rcases t with ⟨⟨d', p', sch', c'⟩, m'⟩
  simp only at hd hs hc hm
  subst hd hs hc hm
  exact seekEnd_first _ _ _ _ _ _ _ _

example := C45_bz_position_irrelevant (some 0x80) none bzState
  ⟨⟨demoBz, 0x300, fun _ => .ok, 0⟩, elfMem⟩ rfl rfl rfl rfl

/-! ## C54 -/

/-- **C54 (bzImage).** No panic, for every image, memory, arguments and reader behaviour. -/
theorem C54_bz_no_panic (koff highmem : Option GuestAddr) (s : LS) :
    (bzLoad koff highmem s).1 ≠ .panic := bzLoad_no_panic koff highmem s

/-- **C54 (bzImage).** With a faultless reader the load succeeds exactly if there is no obstacle and
fails exactly with the first one. -/
theorem C54_bz_outcome_exact {koff highmem : Option GuestAddr} {s : LS} (hff : FaultFree s) :
    ((∃ r, (bzLoad koff highmem s).1 = .ok r) ↔
      FirstObstacle (bzObstacles s.rd.data koff highmem s.mem) none) ∧
    ∀ e, (bzLoad koff highmem s).1 = .err e ↔
      FirstObstacle (bzObstacles s.rd.data koff highmem s.mem) (some e) := by
  rw [faultFree_eq_clean hff]
  rcases bzLoad_clean s.rd.data koff highmem s.rd.pos s.rd.clock s.mem with
    ⟨hn, p', c', he⟩ | ⟨e, s', he, ho, -⟩
  · rw [he]
    refine ⟨⟨fun _ => hn, fun _ => ⟨_, rfl⟩⟩, fun e => ⟨fun h => by simp at h, fun h => ?_⟩⟩
    exact nomatch firstObstacle_unique hn h
  · rw [he]
    refine ⟨⟨fun ⟨r, h⟩ => by simp at h, fun h => nomatch firstObstacle_unique ho h⟩, fun e' => ⟨?_, ?_⟩⟩
    · intro h
      simp only [Res.err.injEq] at h
      rw [← h]; exact ho
    · intro h
      cases firstObstacle_unique ho h
      rfl

example := C54_bz_outcome_exact (koff := some 0x80) (highmem := some 0x41) (s := bzState) bzState_ff

theorem accessible_end {m : Mem} (hw : m.WF) {a n : Nat} (ha : a < U64) (h : Accessible m a n) :
    a + n < U64 := by
  by_cases hn : n = 0
  · subst hn; exact ha
  · have := Mem.mapped_lt hw (h.1 (a + n - 1) ⟨by omega, by omega⟩)
    omega

/-- **C54 (bzImage).** In well-formed guest memory `MemoryOverflow` does not happen. -/
theorem C54_bz_no_overflow {koff highmem : Option GuestAddr} {s : LS} (hff : FaultFree s)
    (hw : s.mem.WF) : (bzLoad koff highmem s).1 ≠ .err .memoryOverflow := by
  intro h
  have ho := (C54_bz_outcome_exact hff).2 _ |>.1 h
  have ha : bzAddress s.rd.data koff < U64 := by
    unfold bzAddress
    cases koff with
    | none =>
      have := leField_lt s.rd.data 0x214 4
      unfold bzCode32 U64
      simp only
      omega
    | some k => exact k.toNat_lt
  have hl : FirstObstacle (bzObstacles s.rd.data koff highmem s.mem) (some .memoryOverflow) → 
      Accessible s.mem (bzAddress s.rd.data koff) (bzKernel s.rd.data).length ∧
      U64 ≤ bzAddress s.rd.data koff + (bzKernel s.rd.data).length := by
    intro h
    unfold bzObstacles at h
    cases h with | later _ h => cases h with | later _ h => cases h with | later _ h =>
      cases h with | later h4 h => cases h with
        | here h5 => exact ⟨Classical.byContradiction h4, h5⟩
        | later _ h => cases h
  obtain ⟨h1, h2⟩ := hl ho
  have := accessible_end hw ha h1
  omega

example := C54_bz_no_overflow (koff := some 0x80) (highmem := some 0x41) (s := bzState) bzState_ff
  elfMem_wf

end LinuxLoader
