import Verif.Props.BzImage

/-!
# Loading `Image` kernels (arm64, riscv64) and device tree blobs (C44, C45, C51–C54)

For every reader behaviour, unless `FaultFree` is assumed.
-/

namespace LinuxLoader
open Spec

/-! ## Concrete images -/

/-- An image with a 64-byte header and 4 more bytes. -/
def mkPe (text size magic : Nat) : List UInt8 :=
  leBytes 8 0x9090 ++ leBytes 8 text ++ leBytes 8 size ++ List.replicate 32 0x21 ++ leBytes 4 magic ++
    leBytes 4 0 ++ [0xc1, 0xc2, 0xc3, 0xc4]

/-- Guest memory: 256 bytes at 0 and 512 bytes at 2 MiB. -/
def peMem : Mem := ⟨[⟨0, 256⟩, ⟨0x200000, 512⟩], fun _ => 0, true⟩

/-- 256 bytes at 0x80000. -/
def peMem80000 : Mem := ⟨[⟨0x80000, 256⟩], fun _ => 0, true⟩

/-- The demo images load. -/
theorem demoPe_loads :
    (peLoad .arm64 (some 0x200000) none ⟨⟨mkPe 0x10 1 0x644d5241, 3, fun _ => .ok, 0⟩, peMem⟩).1 =
      .ok ⟨0x200010, 0x200054, none, .ignored⟩ ∧
    (peLoad .arm64 none none ⟨.cursor (mkPe 0x10 0 0x644d5241), peMem80000⟩).1 =
      .ok ⟨0x80000, 0x80044, none, .ignored⟩ ∧
    (peLoad .riscv64 none none ⟨.cursor (mkPe 0x10 0 0x05435352), peMem⟩).1 =
      .ok ⟨0x10, 0x54, none, .ignored⟩ := by decide +kernel

/-! ## C51 -/

/-- **C51.** After a successful load the whole file is in guest memory at `kernel_load`, everything
else is unchanged, and `kernel_load` is the given base (default 0) plus the text offset: the field at
offset 8 of the image, except 0x80000 for arm64 images with image size (field at 16) 0. -/
theorem C51_pe_image_in_place {arch : PeArch} {koff highmem : Option GuestAddr} {s s' : LS}
    {r : LoadResult} (h : peLoad arch koff highmem s = (.ok r, s')) :
    Stored s.mem s'.mem r.kernelLoad s.rd.data ∧
    Mapped s.mem r.kernelLoad s.rd.data.length ∧
    r.kernelLoad = koffBase koff +
      (if arch = .arm64 ∧ leField s.rd.data 16 8 = 0 then 0x80000 else leField s.rd.data 8 8) ∧
    r.kernelEnd = r.kernelLoad + s.rd.data.length ∧ r.kernelEnd < U64 ∧
    r.setupHeader = none ∧ r.pvh = .ignored := by
  obtain ⟨ho, hr, hm⟩ := peLoad_ok h
  have h5 := firstObstacle_none_iff.1 ho _ (.tail _ (.tail _ (.tail _ (.tail _ (.head _)))))
  have h6 := firstObstacle_none_iff.1 ho _ (.tail _ (.tail _ (.tail _ (.tail _ (.tail _ (.head _))))))
  subst hr
  refine ⟨?_, Classical.byContradiction h5, rfl, rfl, Nat.lt_of_not_le h6, rfl, rfl⟩
  rw [hm]
  exact Mem.stored_store _ _ _

example := C51_pe_image_in_place (ran demoPe_loads.1)

/-- The bytes of the loaded demo image and around it. -/
example : let m := (peLoad .riscv64 none none ⟨.cursor (mkPe 0x10 0 0x05435352), peMem⟩).2.mem
    (List.range 6).map (fun i => m.data (0x4f + i)) = [0, 0xc1, 0xc2, 0xc3, 0xc4, 0] ∧
    (List.range 4).map (fun i => m.data (0xf + i)) = [0, 0x90, 0x90, 0] := by decide +kernel

/-! ## C52 -/

/-- **C52.** Whatever the reader does: an image without a complete header or with a wrong magic number
or a base address that is not a multiple of 2 MiB is rejected, and guest memory is unchanged. -/
theorem C52_pe_rejects {arch : PeArch} {koff highmem : Option GuestAddr} {s : LS}
    (hbad : s.rd.data.length < 64 ∨ ¬ PeMagicOk arch s.rd.data ∨
      ∃ k, koff = some k ∧ k.toNat % 0x200000 ≠ 0) :
    (∃ e, (peLoad arch koff highmem s).1 = .err e) ∧ (peLoad arch koff highmem s).2.mem = s.mem := by
  have herr : ∃ e, (peLoad arch koff highmem s).1 = .err e := by
    rcases hx : peLoad arch koff highmem s with ⟨r, s'⟩
    cases r with
    | ok r =>
      obtain ⟨ho, -, -⟩ := peLoad_ok hx
      have o1 := firstObstacle_none_iff.1 ho _ (.head _)
      have o2 := firstObstacle_none_iff.1 ho _ (.tail _ (.head _))
      have o3 := firstObstacle_none_iff.1 ho _ (.tail _ (.tail _ (.head _)))
      rcases hbad with h | h | h
      · exact absurd h o1
      · exact absurd h o2
      · exact absurd h o3
    | err e => exact ⟨e, rfl⟩
    | panic => exact absurd (by rw [hx]) (peLoad_no_panic arch koff highmem s)
  refine ⟨herr, ?_⟩
  unfold peLoad
  rw [LM.bind_def]
  rcases h1 : seekEnd (.pe .seekImageEnd : LoadError) s with ⟨r1, s1⟩
  have m1 := Quiet.seekEnd (.pe .seekImageEnd : LoadError) s
  rw [h1] at m1
  cases r1 with
  | err e => exact m1
  | panic => exact m1
  | ok size =>
    simp only
    obtain ⟨-, e1⟩ := seekEnd_eq_ok h1
    rw [LM.bind_def]
    rcases h2 : seekStart 0 (.pe .seekImageHeader : LoadError) s1 with ⟨r2, s2⟩
    have m2 := Quiet.seekStart 0 (.pe .seekImageHeader : LoadError) s1
    rw [h2] at m2
    cases r2 with
    | err e => exact m2.trans m1
    | panic => exact m2.trans m1
    | ok u =>
      simp only
      have e2 := seekStart_eq_ok h2
      rw [LM.bind_def]
      rcases h3 : readExact 64 (.pe .readImageHeader : LoadError) s2 with ⟨r3, s3⟩
      have m3 := Quiet.readExact 64 (.pe .readImageHeader : LoadError) s2
      rw [h3] at m3
      cases r3 with
      | err e => exact m3.trans (m2.trans m1)
      | panic => exact m3.trans (m2.trans m1)
      | ok hd =>
        simp only
        have hm3 := m3.trans (m2.trans m1)
        simp only at hm3
        obtain ⟨hh, -⟩ := readExact_eq_ok h3
        have hh' : hd = s.rd.data.take 64 := by rw [hh, e2, e1]; rfl
        have hlen : 64 ≤ s.rd.data.length := by
          unfold readExact at h3
          split at h3
          · cases h3
          · rename_i hn
            rw [not_or] at hn
            have : s2.rd.rest = s.rd.data := by rw [e2, e1]; rfl
            rw [this] at hn
            exact Nat.le_of_not_lt hn.2
        by_cases hmg : PeMagicOk arch s.rd.data
        · obtain ⟨k, rfl, hk⟩ : ∃ k, koff = some k ∧ k.toNat % 0x200000 ≠ 0 := by
            rcases hbad with h | h | h
            · omega
            · exact absurd hmg h
            · exact h
          rw [LM.bind_ok (a := ()) (s' := s3) (by
            rw [hh', (peMagic_iff arch s.rd.data).2 hmg]; simp)]
          rw [LM.bind_err (e := .pe .invalidBaseAddrAlignment) (s' := s3) (by
            unfold peCheckAlign
            dsimp only
            rw [show (k.toNat % 0x200000 == 0) = false by simpa using hk]
            rfl)]
          exact hm3
        · rw [LM.bind_err (e := .pe .invalidImageMagicNumber) (s' := s3) (by
            rw [hh', show (peMagic (s.rd.data.take 64) == arch.magic) = false by
              simpa using fun h => hmg ((peMagic_iff arch s.rd.data).1 h)]
            rfl)]
          exact hm3

example := C52_pe_rejects (arch := .arm64) (koff := some 0x100000) (highmem := none)
  (s := ⟨.cursor (mkPe 0 1 0x644d5241), peMem⟩) (.inr (.inr ⟨0x100000, rfl, by decide⟩))

/-- **C52.** With a faultless reader: `ReadImageHeader` iff the header is incomplete,
`InvalidImageMagicNumber` iff it is complete and its magic number is wrong,
`InvalidBaseAddrAlignment` iff magic number and header are fine and a misaligned base is given. -/
theorem C52_pe_error_kind {arch : PeArch} {koff highmem : Option GuestAddr} {s : LS}
    (hff : FaultFree s) :
    ((peLoad arch koff highmem s).1 = .err (.pe .readImageHeader) ↔ s.rd.data.length < 64) ∧
    ((peLoad arch koff highmem s).1 = .err (.pe .invalidImageMagicNumber) ↔
      64 ≤ s.rd.data.length ∧ ¬ PeMagicOk arch s.rd.data) ∧
    ((peLoad arch koff highmem s).1 = .err (.pe .invalidBaseAddrAlignment) ↔
      64 ≤ s.rd.data.length ∧ PeMagicOk arch s.rd.data ∧
        ∃ k, koff = some k ∧ k.toNat % 0x200000 ≠ 0) := by
  have key : ∀ e, (peLoad arch koff highmem s).1 = .err e ↔
      FirstObstacle (peObstacles arch s.rd.data koff s.mem) (some e) := by
    intro e
    rw [faultFree_eq_clean hff]
    rcases peLoad_clean arch s.rd.data koff highmem s.rd.pos s.rd.clock s.mem with
      ⟨hn, p', c', he⟩ | ⟨e', s', he, ho, -⟩
    · rw [he]
      exact ⟨fun h => by simp at h, fun h => nomatch firstObstacle_unique hn h⟩
    · rw [he]
      constructor
      · intro h
        simp only [Res.err.injEq] at h
        rw [← h]; exact ho
      · intro h
        cases firstObstacle_unique ho h
        rfl
  simp only [key]
  refine ⟨⟨fun h => ?_, .here⟩, ⟨fun h => ?_, fun ⟨h1, h2⟩ => .later (by omega) (.here h2)⟩,
    ⟨fun h => ?_, fun ⟨h1, h2, h3⟩ => .later (by omega) (.later (fun h => h h2) (.here h3))⟩⟩
  · unfold peObstacles at h
    cases h with
    | here h => exact h
    | later _ h => cases h with | later _ h => cases h with | later _ h => cases h with | later _ h =>
        cases h with | later _ h => cases h with | later _ h => cases h
  · unfold peObstacles at h
    cases h with
    | later h0 h => cases h with
      | here h1 => exact ⟨by omega, h1⟩
      | later _ h => cases h with | later _ h => cases h with | later _ h =>
        cases h with | later _ h => cases h with | later _ h => cases h
  · unfold peObstacles at h
    cases h with
    | later h0 h => cases h with
      | later h1 h => cases h with
        | here h2 => exact ⟨by omega, Classical.byContradiction h1, h2⟩
        | later _ h => cases h with | later _ h =>
          cases h with | later _ h => cases h with | later _ h => cases h

example := C52_pe_error_kind (arch := .riscv64) (koff := none) (highmem := none)
  (s := ⟨⟨mkPe 0 1 0x644d5241, 9, fun _ => .ok, 0⟩, peMem⟩) (fun _ => rfl)

/-- All three errors happen. -/
example : (peLoad .arm64 none none ⟨.cursor ((mkPe 0 1 0x644d5241).take 63), peMem⟩).1 =
      .err (.pe .readImageHeader) ∧
    (peLoad .riscv64 none none ⟨.cursor (mkPe 0 1 0x644d5241), peMem⟩).1 =
      .err (.pe .invalidImageMagicNumber) ∧
    (peLoad .arm64 (some 0x100000) none ⟨.cursor (mkPe 0 1 0x644d5241), peMem⟩).1 =
      .err (.pe .invalidBaseAddrAlignment) := by decide +kernel

/-! ## C53 -/

/-- **C53.** After a successful `load_dtb` (whatever the reader does) the blob is at most 2 MiB long
and guest memory holds it at the given address, and is otherwise unchanged. -/
theorem C53_dtb_in_place {a : GuestAddr} {s s' : LS} (h : loadDtb a s = (.ok (), s')) :
    s.rd.data.length ≤ 0x200000 ∧ Mapped s.mem a.toNat s.rd.data.length ∧
    Stored s.mem s'.mem a.toNat s.rd.data := by
  obtain ⟨t', ht, hs, -⟩ := (good_loadDtb a).ok s
    (clean s.rd.data s.rd.pos 0 s.mem) () s' ⟨rfl, rfl, rfl⟩ (clean_faultless _ _ _ _) h
  rcases loadDtb_clean a s.rd.data s.rd.pos 0 s.mem with
    ⟨h1, h2, p', c', he⟩ | ⟨-, s'', he, -⟩ | ⟨-, -, s'', he⟩
  · rw [he] at ht
    cases ht
    refine ⟨h1, h2.1, ?_⟩
    rw [show s'.mem = _ from hs.2.2]
    exact Mem.stored_store _ _ _
  · rw [he] at ht; cases ht
  · rw [he] at ht; cases ht

example := C53_dtb_in_place (a := 0x2001f0) (s := ⟨⟨List.replicate 16 0xd0, 9, fun _ => .ok, 0⟩, peMem⟩)
  (ran (by decide +kernel))

/-- **C53.** With a faultless reader `load_dtb` succeeds exactly for blobs of at most 2 MiB whose
target range is mapped; a larger blob gives `DtbTooBig` and nothing is written; otherwise the error
is `ReadDtbImage`. -/
theorem C53_dtb_outcome {a : GuestAddr} {s : LS} (hff : FaultFree s) :
    ((loadDtb a s).1 = .ok () ↔
      s.rd.data.length ≤ 0x200000 ∧ Accessible s.mem a.toNat s.rd.data.length) ∧
    ((loadDtb a s).1 = .err (.pe .dtbTooBig) ↔ 0x200000 < s.rd.data.length) ∧
    ((loadDtb a s).1 = .err (.pe .readDtbImage) ↔
      s.rd.data.length ≤ 0x200000 ∧ ¬ Accessible s.mem a.toNat s.rd.data.length) := by
  rw [faultFree_eq_clean hff]
  simp only [clean]
  rcases loadDtb_clean a s.rd.data s.rd.pos s.rd.clock s.mem with
    ⟨h1, h2, p', c', he⟩ | ⟨h1, s'', he, -⟩ | ⟨h1, h2, s'', he⟩ <;>
    simp only [clean] at he <;> rw [he] <;> simp_all <;> omega

example := C53_dtb_outcome (a := 0x2001f1)
  (s := ⟨⟨List.replicate 16 0xd0, 9, fun _ => .ok, 0⟩, peMem⟩) (fun _ => rfl)

/-- **C53.** A blob of more than 2 MiB changes nothing, whatever the reader does. -/
theorem C53_dtb_too_big {a : GuestAddr} {s : LS} (hbig : 0x200000 < s.rd.data.length) :
    (∃ e, (loadDtb a s).1 = .err e) ∧ (loadDtb a s).2.mem = s.mem := by
  unfold loadDtb
  rw [LM.bind_def]
  rcases h1 : seekEnd (.pe .seekDtbEnd : LoadError) s with ⟨r1, s1⟩
  have m1 := Quiet.seekEnd (.pe .seekDtbEnd : LoadError) s
  rw [h1] at m1
  cases r1 with
  | err e => exact ⟨⟨e, rfl⟩, m1⟩
  | panic =>
    unfold seekEnd at h1
    split at h1 <;> cases h1
  | ok size =>
    simp only
    obtain ⟨e0, e1⟩ := seekEnd_eq_ok h1
    rw [LM.bind_err (e := .pe .dtbTooBig) (s' := s1) (by
      rw [decide_eq_false (by omega)]; rfl)]
    exact ⟨⟨_, rfl⟩, m1⟩

/-- A blob in the second region, and one that does not fit. -/
example : (loadDtb 0x2001f0 ⟨.cursor (List.replicate 16 0xd0), peMem⟩).1 = .ok () ∧
    (loadDtb 0x2001f1 ⟨.cursor (List.replicate 16 0xd0), peMem⟩).1 = .err (.pe .readDtbImage) := by
  decide +kernel

/-- A blob that is one byte too big. -/
example : (loadDtb 0 ⟨.cursor (List.replicate 0x200001 0xd0), peMem⟩).1 = .err (.pe .dtbTooBig) :=
  (C53_dtb_outcome (fun _ => rfl)).2.1.2 (by
    show 0x200000 < (List.replicate 0x200001 (0xd0 : UInt8)).length
    rw [List.length_replicate]
    omega)

/-! ## C44, C45 -/

/-- **C44 (PE).** Whatever happens, every byte of guest memory is the old one or the one the file has
for this address. -/
theorem C44_pe_bytes (arch : PeArch) (koff highmem : Option GuestAddr) (s : LS) (hns : NoScatter s) :
    SameLayout s.mem (peLoad arch koff highmem s).2.mem ∧
    ∀ x, (peLoad arch koff highmem s).2.mem.data x = s.mem.data x ∨
      (peAddress arch s.rd.data koff ≤ x ∧ s.rd.data[x - peAddress arch s.rd.data koff]? =
          some ((peLoad arch koff highmem s).2.mem.data x)) := by
  refine ⟨(good_peLoad arch koff highmem).layout s, fun x => ?_⟩
  rcases peLoad_from arch koff highmem s x with h | ⟨q, hq, h1, h2⟩ | h
  · exact .inl h
  · simp only [List.mem_singleton] at hq
    subst hq
    exact .inr ⟨h1, h2⟩
  · exact absurd hns h.1

example := C44_pe_bytes .riscv64 none none
  ⟨⟨mkPe 0x10 0 0x05435352, 0, fun i => if i = 4 then .fail 2 else .ok, 0⟩, peMem⟩
  (fun i w h => by simp only at h; split at h <;> cases h)

/-- **C44 (PE).** Bytes outside the target range are unchanged, whatever happens. -/
theorem C44_pe_frame (arch : PeArch) (koff highmem : Option GuestAddr) (s : LS) (x : Nat)
    (hx : ¬ InRange (peAddress arch s.rd.data koff) s.rd.data.length x) :
    (peLoad arch koff highmem s).2.mem.data x = s.mem.data x := by
  rcases peLoad_from arch koff highmem s x with h1 | ⟨q, hq, h1, h2⟩ | h1
  · exact h1
  · simp only [List.mem_singleton] at hq
    subst hq
    exact absurd ⟨h1, by have := (List.getElem?_eq_some_iff.1 h2).1; simp only at this ⊢; omega⟩ hx
  · exact absurd h1.2 hx

example := C44_pe_frame .arm64 (some 0x200000) none
  ⟨⟨mkPe 0x10 1 0x644d5241, 3, fun i => if i = 4 then .fail 2 else .ok, 0⟩, peMem⟩ 0x20000f
  (by decide +kernel)

/-- **C44 (device tree).** Bytes outside the target range are unchanged, whatever happens. -/
theorem C44_dtb_frame (a : GuestAddr) (s : LS) :
    SameLayout s.mem (loadDtb a s).2.mem ∧
    ∀ x, ¬ InRange a.toNat s.rd.data.length x → (loadDtb a s).2.mem.data x = s.mem.data x := by
  refine ⟨(good_loadDtb a).layout s, fun x hx => ?_⟩
  rcases loadDtb_from a s x with h | ⟨q, hq, h1, h2⟩ | h
  · exact h
  · simp only [List.mem_singleton] at hq
    subst hq
    exact absurd ⟨h1, by have := (List.getElem?_eq_some_iff.1 h2).1; simp only at this ⊢; omega⟩ hx
  · exact absurd h.2 hx

/-- **C44 (device tree).** Whatever happens, every byte of guest memory is the old one or the one the blob
has for this address. -/
theorem C44_dtb_bytes (a : GuestAddr) (s : LS) (hns : NoScatter s) (x : Nat) :
    (loadDtb a s).2.mem.data x = s.mem.data x ∨
      (a.toNat ≤ x ∧ s.rd.data[x - a.toNat]? = some ((loadDtb a s).2.mem.data x)) := by
  rcases loadDtb_from a s x with h | ⟨q, hq, h1, h2⟩ | h
  · exact .inl h
  · simp only [List.mem_singleton] at hq
    subst hq
    exact .inr ⟨h1, h2⟩
  · exact absurd hns h.1

example := C44_dtb_bytes 0x200000
  ⟨⟨List.replicate 16 0xd0, 9, fun i => if i = 2 then .fail 3 else .ok, 0⟩, peMem⟩
  (fun i w h => by simp only at h; split at h <;> cases h)

/-- It does fail, having stored three bytes. -/
example : let s : LS := ⟨⟨List.replicate 16 0xd0, 9, fun i => if i = 2 then .fail 3 else .ok, 0⟩, peMem⟩
    (loadDtb 0x200000 s).1 = .err (.pe .readDtbImage) ∧
    (List.range 5).map (fun i => (loadDtb 0x200000 s).2.mem.data (0x200000 + i)) = [0xd0, 0xd0, 0xd0, 0, 0] := by
  decide +kernel

/-- A load that fails after two bytes. -/
example : NoScatter ⟨⟨mkPe 0x10 0 0x05435352, 0, fun i => if i = 4 then .fail 2 else .ok, 0⟩, peMem⟩ :=
  fun i w h => by simp only at h; split at h <;> cases h

example : let s : LS := ⟨⟨mkPe 0x10 0 0x05435352, 0, fun i => if i = 4 then .fail 2 else .ok, 0⟩, peMem⟩
    let r := peLoad .riscv64 none none s
    r.1 = .err (.pe .readKernelImage) ∧
    (List.range 4).map (fun i => r.2.mem.data (0x10 + i)) = [0x90, 0x90, 0, 0] ∧
    (List.range 2).map (fun i => r.2.mem.data (0x50 + i)) = [0, 0] := by decide +kernel

/-- **C45 (PE).** The position of the reader before the call does not matter. -/
theorem C45_pe_position_irrelevant (arch : PeArch) (koff highmem : Option GuestAddr) (s t : LS)
    (hd : t.rd.data = s.rd.data) (hs : t.rd.sched = s.rd.sched) (hc : t.rd.clock = s.rd.clock)
    (hm : t.mem = s.mem) :
    (peLoad arch koff highmem t).1 = (peLoad arch koff highmem s).1 ∧
    (peLoad arch koff highmem t).2.mem = (peLoad arch koff highmem s).2.mem := by
  rcases s with ⟨⟨d, p, sch, c⟩, m⟩
  rcases t with ⟨⟨d', p', sch', c'⟩, m'⟩
  simp only at hd hs hc hm
  subst hd hs hc hm
  exact seekEnd_first _ _ _ _ _ _ _ _

example := C45_pe_position_irrelevant .arm64 (some 0x200000) none
  ⟨⟨mkPe 0x10 1 0x644d5241, 3, fun _ => .ok, 0⟩, peMem⟩
  ⟨⟨mkPe 0x10 1 0x644d5241, 0x500, fun _ => .ok, 0⟩, peMem⟩ rfl rfl rfl rfl

/-- **C45 (device tree).** The position of the reader before the call does not matter. -/
theorem C45_dtb_position_irrelevant (a : GuestAddr) (s t : LS)
    (hd : t.rd.data = s.rd.data) (hs : t.rd.sched = s.rd.sched) (hc : t.rd.clock = s.rd.clock)
    (hm : t.mem = s.mem) :
    (loadDtb a t).1 = (loadDtb a s).1 ∧ (loadDtb a t).2.mem = (loadDtb a s).2.mem := by
  rcases s with ⟨⟨d, p, sch, c⟩, m⟩
  rcases t with ⟨⟨d', p', sch', c'⟩, m'⟩
  simp only at hd hs hc hm
  subst hd hs hc hm
  exact seekEnd_first _ _ _ _ _ _ _ _

example := C45_dtb_position_irrelevant 0x200000
  ⟨⟨List.replicate 16 0xd0, 3, fun _ => .ok, 0⟩, peMem⟩
  ⟨⟨List.replicate 16 0xd0, 0x500, fun _ => .ok, 0⟩, peMem⟩ rfl rfl rfl rfl

/-! ## C54 -/

/-- **C54 (PE).** No panic, for every image, memory, arguments and reader behaviour. -/
theorem C54_pe_no_panic (arch : PeArch) (koff highmem : Option GuestAddr) (s : LS) :
    (peLoad arch koff highmem s).1 ≠ .panic := peLoad_no_panic arch koff highmem s

/-- **C54 (device tree).** No panic. -/
theorem C54_dtb_no_panic (a : GuestAddr) (s : LS) : (loadDtb a s).1 ≠ .panic := by
  intro hp
  rcases hx : loadDtb a s with ⟨r, s'⟩
  rw [hx] at hp
  simp only at hp
  subst hp
  obtain ⟨t', ht⟩ := (good_loadDtb a).panic s
    (clean s.rd.data s.rd.pos 0 s.mem) s' ⟨rfl, rfl, rfl⟩ (clean_faultless _ _ _ _) hx
  rcases loadDtb_clean a s.rd.data s.rd.pos 0 s.mem with
    ⟨h1, h2, p', c', he⟩ | ⟨-, s'', he, -⟩ | ⟨-, -, s'', he⟩ <;> rw [he] at ht <;> cases ht

/-- **C54 (PE).** With a faultless reader the load succeeds exactly if there is no obstacle and fails
exactly with the first one. -/
theorem C54_pe_outcome_exact {arch : PeArch} {koff highmem : Option GuestAddr} {s : LS}
    (hff : FaultFree s) :
    ((∃ r, (peLoad arch koff highmem s).1 = .ok r) ↔
      FirstObstacle (peObstacles arch s.rd.data koff s.mem) none) ∧
    ∀ e, (peLoad arch koff highmem s).1 = .err e ↔
      FirstObstacle (peObstacles arch s.rd.data koff s.mem) (some e) := by
  rw [faultFree_eq_clean hff]
  rcases peLoad_clean arch s.rd.data koff highmem s.rd.pos s.rd.clock s.mem with
    ⟨hn, p', c', he⟩ | ⟨e, s', he, ho, -⟩
  · rw [he]
    refine ⟨⟨fun _ => hn, fun _ => ⟨_, rfl⟩⟩, fun e => ⟨fun h => by simp at h, fun h => ?_⟩⟩
    exact nomatch firstObstacle_unique hn h
  · rw [he]
    refine ⟨⟨fun ⟨r, h⟩ => by simp at h, fun h => nomatch firstObstacle_unique ho h⟩, fun e' => ⟨?_, ?_⟩⟩
    · intro h
      simp only [Res.err.injEq] at h
      rw [← h]; exact ho
    · intro h
      cases firstObstacle_unique ho h
      rfl

example := C54_pe_outcome_exact (arch := .riscv64) (koff := some 0x200000) (highmem := none)
  (s := ⟨⟨mkPe 0 1 0x644d5241, 9, fun _ => .ok, 0⟩, peMem⟩) (fun _ => rfl)

/-- **C54 (PE).** In well-formed guest memory `MemoryOverflow` does not happen. -/
theorem C54_pe_no_overflow {arch : PeArch} {koff highmem : Option GuestAddr} {s : LS}
    (hff : FaultFree s) (hw : s.mem.WF) :
    (peLoad arch koff highmem s).1 ≠ .err .memoryOverflow := by
  intro h
  have ho := (C54_pe_outcome_exact hff).2 _ |>.1 h
  have hl : ¬ s.rd.data.length < 64 ∧ ¬ U64 ≤ peAddress arch s.rd.data koff ∧
      Mapped s.mem (peAddress arch s.rd.data koff) s.rd.data.length ∧
      U64 ≤ peAddress arch s.rd.data koff + s.rd.data.length := by
    unfold peObstacles at ho
    cases ho with | later h0 h => cases h with | later _ h => cases h with | later _ h =>
      cases h with | later h3 h => cases h with | later h4 h => cases h with
        | here h5 => exact ⟨h0, h3, Classical.byContradiction h4, h5⟩
        | later _ h => cases h
  obtain ⟨h0, h1, h2, h3⟩ := hl
  have := accessible_end hw (by omega) ⟨h2, fun h => by omega⟩
  omega

example := C54_pe_no_overflow (arch := .riscv64) (koff := none) (highmem := none)
  (s := ⟨⟨mkPe 0 1 0x644d5241, 9, fun _ => .ok, 0⟩, elfMem⟩) (fun _ => rfl) elfMem_wf

end LinuxLoader
