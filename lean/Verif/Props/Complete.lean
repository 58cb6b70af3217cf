import Verif.Lemmas.Complete
import Verif.Props.BeginningExact
import Verif.Props.Config
import Verif.Props.LoadCmdline
import Verif.Props.BzImage
import Verif.Props.Pe
import Verif.Props.Elf

/-!
# C114: the specifications are complete

Every call that writes to guest memory does what its specification (`Spec/Complete.lean`) demands, and nothing else
meets that specification: no other result and no other memory. A program that differs from the crate on any image,
arguments and memory violates the specification there.
-/

namespace LinuxLoader
open Spec

theorem isMaxOf_eq {v w : Nat} {l : List Nat} (hv : IsMaxOf v l) (hw : IsMaxOf w l) : v = w := by
  obtain ⟨v1, v2⟩ := hv
  obtain ⟨w1, w2⟩ := hw
  rcases v2 with v2 | ⟨rfl, rfl⟩
  · rcases w2 with w2 | ⟨rfl, rfl⟩
    · have := v1 w w2
      have := w1 v v2
      omega
    · cases v2
  · rcases w2 with w2 | ⟨-, rfl⟩
    · cases w2
    · rfl

theorem loadResult_eq {r q : LoadResult} (h1 : r.kernelLoad = q.kernelLoad) (h2 : r.kernelEnd = q.kernelEnd)
    (h3 : r.setupHeader = q.setupHeader) (h4 : r.pvh = q.pvh) : r = q := by
  obtain ⟨a, b, c, d⟩ := r
  obtain ⟨a', b', c', d'⟩ := q
  simp only at h1 h2 h3 h4
  rw [h1, h2, h3, h4]

theorem elfValue_eq {img : List UInt8} {koff : Option GuestAddr} (r q : LoadResult) (hr : ElfValue img koff r)
    (hq : ElfValue img koff q) : r = q := by
  refine loadResult_eq (hr.load.trans hq.load.symm) (isMaxOf_eq hr.kend hq.kend) (hr.header.trans hq.header.symm) ?_
  by_cases hk : koff = none
  · cases hn : lastNote img with
    | none => rw [hr.noNotes hk hn, hq.noNotes hk hn]
    | some ph =>
      have := (hr.notes hk ph hn).symm.trans (hq.notes hk ph hn)
      injection this
  · rw [hr.relocated hk, hq.relocated hk]

theorem elfLeft_eq {img : List UInt8} {koff highmem : Option GuestAddr} {m : Mem} (e : LoadError)
    (ho : FirstObstacle (elfObstacles img koff highmem m) (some e)) (m₁ m₂ : Mem)
    (h₁ : elfLeft img koff highmem m e m₁) (h₂ : elfLeft img koff highmem m e m₂) : m₁ = m₂ := by
  unfold elfObstacles at ho
  rcases firstObstacle_append_cases ho with hh | ⟨hn, hp⟩
  · rw [h₁.1 hh, h₂.1 hh]
  · obtain ⟨pre, h, post, hs, hpre, hh⟩ := firstObstacle_flatMap hp
    obtain ⟨i, ri, oi⟩ := h₁.2 pre post h hn hs hpre hh
    obtain ⟨j, rj, oj⟩ := h₂.2 pre post h hn hs hpre hh
    rw [reach_eq ri rj] at oi
    exact overlaid_eq oi oj

/-- **C114 (ELF).** Of all results and memories exactly those of `Elf::load` are right. -/
theorem C114_elf (koff highmem : Option GuestAddr) (s : LS) (hf : FaultFree s) (hlen : s.rd.data.length < ISZ)
    (res : Res LoadError LoadResult) (m' : Mem) :
    ElfDone s.rd.data koff highmem s.mem res m' ↔
      res = (elfLoad koff highmem s).1 ∧ m' = (elfLoad koff highmem s).2.mem := by
  obtain ⟨hok, herr⟩ := C62_elf_outcome_exact (koff := koff) (highmem := highmem) hlen hf
  refine doneRight_iff elfValue_eq elfLeft_eq ⟨fun ho => ?_, fun e he => ⟨(herr e).2 he, ?_, ?_⟩⟩ res m'
  · obtain ⟨r, hr⟩ := hok.2 ho
    have h : elfLoad koff highmem s = (.ok r, (elfLoad koff highmem s).2) := Prod.ext hr rfl
    obtain ⟨f1, -, f3, -, f5⟩ := C37_elf_result_fields hlen h
    refine ⟨r, hr, ⟨f1, f3, f5, fun hk => ?_, fun hk hn => ?_, fun hk ph hn => ?_⟩,
      C35_elf_segments_in_place hlen h⟩
    · cases koff with
      | none => exact absurd rfl hk
      | some k => exact C42_pvh_ignored_with_offset hlen h
    · subst hk
      exact (C42_pvh_of_last_note hlen h).1 hn
    · subst hk
      exact (C42_pvh_of_last_note hlen h).2 ph hn
  · exact fun hh => (C36_elf_header_errors hlen hf hh).2
  · exact fun pre post h hn hs hpre hh => (C107_elf koff highmem s hf hlen pre post h e hn hs hpre hh).2

theorem take4_eq {a b : List UInt8} (ha : a.length = 123) (hb : b.length = 123)
    (h : leField a 0x23 4 = leField b 0x23 4) : (a.drop 0x23).take 4 = (b.drop 0x23).take 4 := by
  have hla : ((a.drop 0x23).take 4).length = 4 := by simp [ha]
  have hlb : ((b.drop 0x23).take 4).length = 4 := by simp [hb]
  have h1 := leBytes_leNat ((a.drop 0x23).take 4)
  have h2 := leBytes_leNat ((b.drop 0x23).take 4)
  unfold leField at h
  rw [← h1, ← h2, hla, hlb, h]

theorem bzValue_eq {img : List UInt8} {koff : Option GuestAddr} (r q : LoadResult) (hr : BzValue img koff r)
    (hq : BzValue img koff q) : r = q := by
  have hl : r.kernelLoad = q.kernelLoad := hr.load.trans hq.load.symm
  refine loadResult_eq hl (hr.kend.trans hq.kend.symm) ?_ (hr.pvh.trans hq.pvh.symm)
  obtain ⟨a, ha, la, fa, ca⟩ := hr.header
  obtain ⟨b, hb, lb, fb, cb⟩ := hq.header
  rw [ha, hb]
  congr 1
  have h4 := take4_eq la lb (by rw [ca, cb, hl])
  apply List.ext_getElem?
  intro i
  by_cases hi : i < 123
  · by_cases ho : i < 0x23 ∨ 0x27 ≤ i
    · rw [fa i hi ho, fb i hi ho]
    · have := congrArg (·[i - 0x23]?) h4
      simp only [List.getElem?_take, List.getElem?_drop] at this
      rw [if_pos (by omega), if_pos (by omega), show 0x23 + (i - 0x23) = i by omega] at this
      exact this
  · rw [List.getElem?_eq_none (by omega), List.getElem?_eq_none (by omega)]

/-- **C114 (bzImage).** Of all results and memories exactly those of `BzImage::load` are right. -/
theorem C114_bz (koff highmem : Option GuestAddr) (s : LS) (hf : FaultFree s) (res : Res LoadError LoadResult)
    (m' : Mem) :
    BzDone s.rd.data koff highmem s.mem res m' ↔
      res = (bzLoad koff highmem s).1 ∧ m' = (bzLoad koff highmem s).2.mem := by
  have hns : NoShortReads s := fun i k h => by rw [hf i] at h; cases h
  obtain ⟨hok, herr⟩ := C54_bz_outcome_exact (koff := koff) (highmem := highmem) hf
  refine doneRight_exactly bzValue_eq
    ⟨fun ho => ?_, fun e he => ⟨(herr e).2 he, (C107_images s hf e).1 koff highmem ((herr e).2 he)⟩⟩ res m'
  obtain ⟨r, hr⟩ := hok.2 ho
  have h : bzLoad koff highmem s = (.ok r, (bzLoad koff highmem s).2) := Prod.ext hr rfl
  obtain ⟨f1, -, f3, -, f5, f6⟩ := C47_bz_kernel_in_place h
  have hl : r.kernelLoad = bzAddress s.rd.data koff := by
    cases koff with
    | none => exact C47_bz_default_address hns h
    | some k => exact f6 k rfl
  refine ⟨r, hr, ⟨hl, hl ▸ f3, f5, C48_bz_setup_header hns h⟩, ?_⟩
  rw [← hl]
  exact ⟨f1.1, fun x => stored_lastPiece f1 x⟩

theorem peValue_eq {arch : PeArch} {img : List UInt8} {koff : Option GuestAddr} (r q : LoadResult)
    (hr : PeValue arch img koff r) (hq : PeValue arch img koff q) : r = q :=
  loadResult_eq (hr.load.trans hq.load.symm) (hr.kend.trans hq.kend.symm) (hr.header.trans hq.header.symm)
    (hr.pvh.trans hq.pvh.symm)

/-- **C114 (PE).** Of all results and memories exactly those of `PE::load` are right. -/
theorem C114_pe (arch : PeArch) (koff highmem : Option GuestAddr) (s : LS) (hf : FaultFree s)
    (res : Res LoadError LoadResult) (m' : Mem) :
    PeDone arch s.rd.data koff s.mem res m' ↔
      res = (peLoad arch koff highmem s).1 ∧ m' = (peLoad arch koff highmem s).2.mem := by
  obtain ⟨hok, herr⟩ := C54_pe_outcome_exact (arch := arch) (koff := koff) (highmem := highmem) hf
  refine doneRight_exactly peValue_eq
    ⟨fun ho => ?_, fun e he => ⟨(herr e).2 he, (C107_images s hf e).2.1 arch koff highmem ((herr e).2 he)⟩⟩ res m'
  obtain ⟨r, hr⟩ := hok.2 ho
  have h : peLoad arch koff highmem s = (.ok r, (peLoad arch koff highmem s).2) := Prod.ext hr rfl
  obtain ⟨f1, -, f3, f4, -, f6, f7⟩ := C51_pe_image_in_place h
  have hl : r.kernelLoad = peAddress arch s.rd.data koff := f3
  refine ⟨r, hr, ⟨hl, hl ▸ f4, f6, f7⟩, ?_⟩
  rw [← hl]
  exact ⟨f1.1, fun x => stored_lastPiece f1 x⟩

/-- **C114 (device tree).** Of all results and memories exactly those of `load_dtb` are right. -/
theorem C114_dtb (a : GuestAddr) (s : LS) (hf : FaultFree s) (res : Res LoadError Unit) (m' : Mem) :
    DtbDone s.rd.data a s.mem res m' ↔ res = (loadDtb a s).1 ∧ m' = (loadDtb a s).2.mem := by
  obtain ⟨h1, h2, h3⟩ := C53_dtb_outcome (a := a) hf
  refine doneRight_exactly (fun _ _ _ _ => rfl)
    ⟨fun ho => ?_, fun e he => ?_⟩ res m'
  · have ho' := firstObstacle_none_iff.1 ho
    have hb := ho' (.pe .dtbTooBig, 0x200000 < s.rd.data.length) (by simp [dtbObstacles])
    have hA := ho' (.pe .readDtbImage, ¬ Accessible s.mem a.toNat s.rd.data.length) (by simp [dtbObstacles])
    have hr := h1.2 ⟨by simpa using hb, Classical.byContradiction hA⟩
    have h : loadDtb a s = (.ok (), (loadDtb a s).2) := Prod.ext hr rfl
    have f := (C53_dtb_in_place h).2.2
    exact ⟨(), hr, trivial, f.1, fun x => stored_lastPiece f x⟩
  · have hr : (loadDtb a s).1 = .err e := by
      cases he with
      | here hp => exact h2.2 hp
      | later hn he => cases he with
        | here hp => exact h3.2 ⟨by omega, hp⟩
        | later _ he => cases he
    exact ⟨hr, (C107_images s hf e).2.2 a hr⟩

/-- **C114 (command line).** Of all results and memories exactly those of `load_cmdline` are right, in a memory whose
last address is `last`. -/
theorem C114_cmdline (a : GuestAddr) (c : Cmdline) (m : Mem) (hw : m.WF) (last : Nat) (hl : IsLast m last)
    (res : Res CmdlineLoadError Unit) (m' : Mem) :
    LineDone c.bootArgs c.initArgs a m last res m' ↔ res = (loadCmdline a c m).1 ∧ m' = (loadCmdline a c m).2 := by
  obtain ⟨-, h2, h3, h4⟩ := C20_decision a c m hw
  obtain ⟨h4, h5⟩ := h4 last hl
  have hc := C09_as_cstring c
  have hbad : (∃ e, c.asCString = .err e) ↔
      ((c.bootArgs = [] ∧ c.initArgs ≠ []) ∨ '\x00' ∈ text c.bootArgs c.initArgs) := by
    rw [hc]
    split
    · exact ⟨fun _ => .inl ‹_›, fun _ => ⟨_, rfl⟩⟩
    · split
      · exact ⟨fun _ => .inr ‹_›, fun _ => ⟨_, rfl⟩⟩
      · refine ⟨?_, fun h => ?_⟩
        · rintro ⟨e, he⟩
          cases he
        · rcases h with h | h <;> exact absurd h ‹_›
  have hgood : ¬ ((c.bootArgs = [] ∧ c.initArgs ≠ []) ∨ '\x00' ∈ text c.bootArgs c.initArgs) →
      c.asCString = .ok (text c.bootArgs c.initArgs).utf8 := by
    intro h
    rw [hc, if_neg (fun h' => h (.inl h')), if_neg (fun h' => h (.inr h'))]
  refine doneRight_exactly (fun _ _ _ _ => rfl)
    ⟨fun ho => ?_, fun e he => ?_⟩ res m'
  · have ho' := firstObstacle_none_iff.1 ho
    have o1 := ho' _ (List.mem_cons_self ..)
    have o3 := ho' _ (List.mem_cons_of_mem _ (List.mem_cons_of_mem _ (List.mem_cons_self ..)))
    have hr := h3.2 ⟨_, hgood o1, Classical.byContradiction o3⟩
    have h : loadCmdline a c m = (.ok (), (loadCmdline a c m).2) := Prod.ext hr rfl
    have f := C19_text a c m _ h
    exact ⟨(), hr, trivial, f.1, fun x => stored_lastPiece f x⟩
  · have hr : (loadCmdline a c m).1 = .err e := by
      cases he with
      | here hp => exact h2.2 (hbad.2 hp)
      | later hn he => cases he with
        | here hp => exact h4.2 ⟨_, hgood hn, hp⟩
        | later hn' he => cases he with
          | here hp =>
            refine h5.2 ⟨_, hgood hn, by omega, ?_⟩
            apply Classical.byContradiction
            intro hx
            apply hp
            intro x hr
            cases hm : m.mapped x with
            | true => rfl
            | false => exact absurd ⟨x, hr, hm⟩ hx
          | later _ he => cases he
    exact ⟨hr, (C107_writes m).1 a c e hr⟩

theorem mapped_snoc {m : Mem} {a n : Nat} :
    Mapped m a (n + 1) ↔ Mapped m a n ∧ m.mapped (a + n) = true := by
  constructor
  · exact fun h => ⟨fun x hx => h x ⟨hx.1, by have := hx.2; omega⟩, h _ ⟨by omega, by omega⟩⟩
  · rintro ⟨h1, h2⟩ x ⟨hx1, hx2⟩
    by_cases hx : x = a + n
    · rw [hx]; exact h2
    · exact h1 x ⟨hx1, by omega⟩

/-- **C114 (zero page).** Of all results and memories exactly those of the Linux configurator are right. -/
theorem C114_linux (p : BootParams) (m : Mem) (hw : m.WF) (res : Res LinuxError Unit) (m' : Mem) :
    LinuxDone p m res m' ↔ res = (linuxWrite p m).1 ∧ m' = (linuxWrite p m).2 := by
  obtain ⟨h1, h2, h3⟩ := C29_exact p m hw
  refine doneRight_exactly (fun _ _ _ _ => rfl)
    ⟨fun ho => ?_, fun e he => ?_⟩ res m'
  · have ho' := firstObstacle_none_iff.1 ho
    have o1 := ho' _ (List.mem_cons_self ..)
    have o2 := ho' _ (List.mem_cons_of_mem _ (List.mem_cons_self ..))
    have hr := h2.2 (mapped_snoc.2 ⟨Classical.byContradiction o2, by simpa using o1⟩)
    have f := C28_success p m _ hw (Prod.ext hr rfl : linuxWrite p m = (.ok (), (linuxWrite p m).2))
    exact ⟨(), hr, trivial, f.1, fun x => stored_lastPiece f x⟩
  · have hr : (linuxWrite p m).1 = .err e := by
      cases he with
      | here hp => exact h3.2 hp
      | later hn he => cases he with
        | here hp =>
          rcases hx : (linuxWrite p m).1 with ⟨⟨⟩⟩ | e | _
          · exact absurd (mapped_snoc.1 (h2.1 hx)).1 hp
          · cases e with
            | zeroPagePastRamEnd => exact absurd (h3.1 hx) hn
            | zeroPageSetup => rfl
          · exact absurd hx h1
        | later _ he => cases he
    exact ⟨hr, (C107_writes m).2.1 p e hr⟩

/-- **C114 (device tree configurator).** Of all results and memories exactly those of the FDT configurator are right. -/
theorem C114_fdt (p : BootParams) (m : Mem) (hw : m.WF) (res : Res FdtError Unit) (m' : Mem) :
    FdtDone p m res m' ↔ res = (fdtWrite p m).1 ∧ m' = (fdtWrite p m).2 := by
  obtain ⟨h1, h2, h4, h3, -, -⟩ := C30_fdt p m hw
  refine doneRight_exactly (fun _ _ _ _ => rfl)
    ⟨fun ho => ?_, fun e he => ?_⟩ res m'
  · have ho' := firstObstacle_none_iff.1 ho
    have o1 := ho' _ (List.mem_cons_self ..)
    have o2 := ho' _ (List.mem_cons_of_mem _ (List.mem_cons_self ..))
    have hr := h2.2 (mapped_snoc.2 ⟨Classical.byContradiction o2, by simpa using o1⟩)
    have f := h4 hr
    exact ⟨(), hr, trivial, f.1, fun x => stored_lastPiece f x⟩
  · have hr : (fdtWrite p m).1 = .err e := by
      cases he with
      | here hp => exact h3.2 hp
      | later hn he => cases he with
        | here hp =>
          rcases hx : (fdtWrite p m).1 with ⟨⟨⟩⟩ | e | _
          · exact absurd (mapped_snoc.1 (h2.1 hx)).1 hp
          · cases e with
            | fdtPastRamEnd => exact absurd (h3.1 hx) hn
            | writeFdtToMemory => rfl
          · exact absurd hx h1
        | later _ he => cases he
    exact ⟨hr, (C107_writes m).2.2 p e hr⟩

/-- **C114 (PVH).** Of all results and memories exactly those of the PVH configurator are right. -/
theorem C114_pvh (p : BootParams) (m : Mem) (hw : m.WF) (res : Res PvhError Unit) (m' : Mem) :
    PvhDone p m res m' ↔ res = (pvhWrite p m).1 ∧ m' = (pvhWrite p m).2 := by
  obtain ⟨-, hok, herr⟩ := C32_first_obstacle p m hw
  refine doneRight_exactly (fun _ _ _ _ => rfl)
    ⟨fun ho => ?_, fun e he => ⟨(herr e).2 he, C107_pvh p m e ((herr e).2 he)⟩⟩ res m'
  have hr := hok.2 ho
  exact ⟨(), hr, trivial, C31_success p m _ hw (Prod.ext hr rfl : pvhWrite p m = (.ok (), (pvhWrite p m).2))⟩

/-! ## Examples: right and wrong results -/

/-- The demo image loads, and a program that stops at the first segment's end, forgets the PVH entry point or leaves
memory as it was is wrong. -/
example : ElfDone demoElf none none elfMem (.ok ⟨0x10, 0x43, none, .present 0x1000000⟩) (elfLoad none none demoState).2.mem ∧
    (∀ m', ¬ ElfDone demoElf none none elfMem (.ok ⟨0x10, 0x28, none, .present 0x1000000⟩) m') ∧
    (∀ m', ¬ ElfDone demoElf none none elfMem (.ok ⟨0x10, 0x43, none, .notPresent⟩) m') ∧
    ∀ res, ¬ ElfDone demoElf none none elfMem res elfMem := by
  have key := C114_elf none none demoState (fun _ => rfl) demoElf_short
  refine ⟨(key _ _).2 ⟨demoElf_loads.symm, rfl⟩, fun m' h => ?_, fun m' h => ?_, fun res h => ?_⟩
  · have := ((key _ _).1 h).1
    rw [demoElf_loads] at this
    revert this
    decide
  · have := ((key _ _).1 h).1
    rw [demoElf_loads] at this
    revert this
    decide
  · have := congrArg (fun m : Mem => m.data 0x20) ((key _ _).1 h).2
    revert this
    decide +kernel

/-- The demo image does not fit into 0x72 bytes of memory with `kernel_offset` 0x30; the first two bytes of the second
segment are in memory, and memory with three of them, or without the first segment, is wrong. -/
example : ElfDone demoElf (some 0x30) none cutoffMem (.err (.elf .readKernelImage))
      (elfLoad (some 0x30) none ⟨.cursor demoElf, cutoffMem⟩).2.mem ∧
    (∀ m', m'.data 0x50 = 0 → ¬ ElfDone demoElf (some 0x30) none cutoffMem (.err (.elf .readKernelImage)) m') ∧
    ∀ m', m'.data 0x72 = 0xa4 → ¬ ElfDone demoElf (some 0x30) none cutoffMem (.err (.elf .readKernelImage)) m' := by
  have key := C114_elf (some 0x30) none ⟨.cursor demoElf, cutoffMem⟩ (fun _ => rfl)
    (by show demoElf.length < ISZ; decide +kernel)
  refine ⟨(key _ _).2 ⟨by decide +kernel, rfl⟩, fun m' hm h => ?_, fun m' hm h => ?_⟩
  · rw [((key _ _).1 h).2] at hm
    revert hm
    decide +kernel
  · rw [((key _ _).1 h).2] at hm
    revert hm
    decide +kernel

/-- The demo bzImage at 0x80: with the address in `code32_start` right, without it wrong. -/
example : BzDone demoBz (some 0x80) (some 0x30) elfMem
      (.ok ⟨0x80, 0x85, some (mkBzHdr 1 0x53726448 0x20f 1 0x80), .ignored⟩)
      (bzLoad (some 0x80) (some 0x30) bzState).2.mem ∧
    ∀ m', ¬ BzDone demoBz (some 0x80) (some 0x30) elfMem
      (.ok ⟨0x80, 0x85, some (mkBzHdr 1 0x53726448 0x20f 1 0x40), .ignored⟩) m' := by
  have key := C114_bz (some 0x80) (some 0x30) bzState bzState_ff
  refine ⟨(key _ _).2 ⟨demoBz_loads_offset.symm, rfl⟩, fun m' h => ?_⟩
  have := ((key _ _).1 h).1
  rw [demoBz_loads_offset] at this
  revert this
  decide +kernel

/-- An arm64 image without image size belongs at 0x80000, not at its text offset. -/
example : PeDone .arm64 (mkPe 0x10 0 0x644d5241) none peMem80000 (.ok ⟨0x80000, 0x80044, none, .ignored⟩)
      (peLoad .arm64 none none ⟨.cursor (mkPe 0x10 0 0x644d5241), peMem80000⟩).2.mem ∧
    ∀ m', ¬ PeDone .arm64 (mkPe 0x10 0 0x644d5241) none peMem80000 (.ok ⟨0x10, 0x54, none, .ignored⟩) m' := by
  have key := C114_pe .arm64 none none ⟨.cursor (mkPe 0x10 0 0x644d5241), peMem80000⟩ (fun _ => rfl)
  refine ⟨(key _ _).2 ⟨demoPe_loads.2.1.symm, rfl⟩, fun m' h => ?_⟩
  have := ((key _ _).1 h).1
  rw [demoPe_loads.2.1] at this
  revert this
  decide

/-- A device tree of which one byte is mapped. -/
example := (C114_dtb 0x13ff ⟨.cursor [7, 8], bootMem⟩ (fun _ => rfl) (.err (.pe .readDtbImage)) _).2
  ⟨by decide +kernel, rfl⟩

example : ¬ DtbDone [7, 8] 0x13ff bootMem (.err (.pe .readDtbImage)) bootMem := fun h => by
  have := congrArg (fun m : Mem => m.data 0x13ff)
    ((C114_dtb 0x13ff ⟨.cursor [7, 8], bootMem⟩ (fun _ => rfl) _ _).1 h).2
  revert this
  decide +kernel

/-- A command line of which only the first 8 bytes are mapped. -/
example := (C114_cmdline 0x1000 demo demoMem demoMem_wf 0x103f demoMem_last (.err .commandLineCopy) _).2
  ⟨by decide, rfl⟩

/-- A zero page that ends with the memory is refused; one that is followed by a mapped byte is written. -/
example : LinuxDone (BootParams.new [1, 2, 3] 0x13fd) bootMem (.err .zeroPagePastRamEnd) bootMem ∧
    ¬ LinuxDone (BootParams.new [1, 2, 3] 0x13fc) bootMem (.ok ()) bootMem := by
  refine ⟨(C114_linux _ _ bootMem_wf _ _).2 ⟨by decide, ?_⟩, fun h => ?_⟩
  · exact (((C28_failure (BootParams.new [1, 2, 3] 0x13fd) bootMem _ .zeroPagePastRamEnd bootMem_wf
      (Prod.ext (by decide) rfl)).1 rfl)).symm
  · have := congrArg (fun m : Mem => m.data 0x13fc) ((C114_linux _ _ bootMem_wf _ _).1 h).2
    revert this
    decide

/-- PVH parameters whose modules are cut off by the end of memory. -/
example := (C114_pvh (((BootParams.new [1, 2, 3] 0x1000).setSections [[4, 5]] 0x1010).setModules [[6, 7]] 0x13ff)
  bootMem bootMem_wf (.err .modulesSetup) _).2 ⟨by decide, rfl⟩

example := (C114_fdt (BootParams.new [1, 2, 3] 0x1000) bootMem bootMem_wf (.ok ()) _).2 ⟨by decide, rfl⟩

end LinuxLoader
