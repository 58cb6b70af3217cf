import Verif.Lemmas.BeginningExact
import Verif.Props.Beginning

/-! # C107, exactly: which error leaves how much behind -/

namespace LinuxLoader
open Spec

/-- **C107 (images, exactly).** Without reader faults: a failing `BzImage::load`, `PE::load` or `load_dtb`
has stored nothing, unless the transfer failed, which has then stored everything up to the first unmapped
address, or the end of the image overflows, when all of it is in memory. -/
theorem C107_images (s : LS) (hf : FaultFree s) (e : LoadError) :
    (∀ koff highmem, (bzLoad koff highmem s).1 = .err e →
      LeftExactly [(bzAddress s.rd.data koff, bzKernel s.rd.data)] (if e = .memoryOverflow then 1 else 0)
        (e = .bz .readBzImageCompressedKernel) s.mem (bzLoad koff highmem s).2.mem) ∧
    (∀ arch koff highmem, (peLoad arch koff highmem s).1 = .err e →
      LeftExactly [(peAddress arch s.rd.data koff, s.rd.data)] (if e = .memoryOverflow then 1 else 0)
        (e = .pe .readKernelImage) s.mem (peLoad arch koff highmem s).2.mem) ∧
    (∀ a, (loadDtb a s).1 = .err e →
      LeftExactly [(a.toNat, s.rd.data)] 0 (e = .pe .readDtbImage) s.mem (loadDtb a s).2.mem) := by
  refine ⟨fun koff highmem h => left_bzLoad koff highmem s hf e h,
    fun arch koff highmem h => left_peLoad arch koff highmem s hf e h, fun a h => ?_⟩
  have hl := left_loadDtb a s hf e h
  rcases he : loadDtb a s with ⟨r, s'⟩
  by_cases hm : e = .memoryOverflow
  · subst hm
    exfalso
    rw [he] at h
    simp only at h
    subst h
    unfold loadDtb at he
    rcases hx : (seekEnd (.pe .seekDtbEnd) : LM LS LoadError Nat) s with ⟨r1, s1⟩
    rw [LM.bind_def, hx] at he
    cases r1 with
    | err e1 => cases he; exact absurd rfl ((before_seekEnd (et := .memoryOverflow) (by decide)).2 _ _ _ hx).1
    | panic => cases he
    | ok size =>
      dsimp only at he
      rcases hx : (LM.require (decide (size ≤ 0x200000)) (.pe .dtbTooBig) : LM LS LoadError Unit) s1 with ⟨r2, s2⟩
      rw [LM.bind_def, hx] at he
      cases r2 with
      | err e1 =>
        cases he
        exact absurd rfl ((before_require (et := .memoryOverflow) _ (by decide)).2 _ _ _ hx).1
      | panic => cases he
      | ok u =>
        dsimp only at he
        rcases hx : (seekStart 0 (.pe .seekDtbStart) : LM LS LoadError Unit) s2 with ⟨r3, s3⟩
        rw [LM.bind_def, hx] at he
        cases r3 with
        | err e1 =>
          cases he
          exact absurd rfl ((before_seekStart (et := .memoryOverflow) _ (by decide)).2 _ _ _ hx).1
        | panic => cases he
        | ok u =>
          dsimp only at he
          cases hw : scatterOf s3 with
          | some w => rw [readIntoMem_some hw] at he; cases he
          | none =>
            rw [readIntoMem_none hw] at he
            unfold readPrefix at he
            dsimp only at he
            split at he <;> cases he
  · rw [if_neg hm, he] at hl
    exact hl

/-- **C107 (writes, exactly).** A failing `load_cmdline`, `LinuxBootConfigurator` or `FdtBootConfigurator` has
stored nothing, unless the write failed, which has then stored everything up to the first unmapped
address. -/
theorem C107_writes (m : Mem) :
    (∀ a (c : Cmdline) e, (loadCmdline a c m).1 = .err e →
      LeftExactly [(a.toNat, (text c.bootArgs c.initArgs).utf8 ++ [0])] 0 (e = .commandLineCopy) m
        (loadCmdline a c m).2) ∧
    (∀ (p : BootParams) e, (linuxWrite p m).1 = .err e →
      LeftExactly [(p.headerStart.toNat, p.header)] 0 (e = .zeroPageSetup) m (linuxWrite p m).2) ∧
    (∀ (p : BootParams) e, (fdtWrite p m).1 = .err e →
      LeftExactly [(p.headerStart.toNat, p.header)] 0 (e = .writeFdtToMemory) m (fdtWrite p m).2) := by
  refine ⟨fun a c e h => ?_, fun p e h => ?_, fun p e h => ?_⟩
  · rcases loadCmdline_cases a c m with ⟨-, h'⟩ | ⟨bs, hbs, ⟨-, h'⟩ | ⟨-, h'⟩⟩
    · rw [h'] at h ⊢; cases h; exact left_stop _ (by decide) _
    · rw [h'] at h ⊢; cases h; exact left_stop _ (by decide) _
    · rw [h'] at h ⊢
      rw [← Cmdline.asCString_ok hbs]
      obtain ⟨rfl, -⟩ := left_writeSliceOr [] trivial h
      exact (left_writeSliceOr [] rfl h).2
  · rw [linuxWrite_eq] at h ⊢
    exact (left_guarded (by decide) [] h).2
  · rw [fdtWrite_eq] at h ⊢
    exact (left_guarded (by decide) [] h).2

/-- **C107 (PVH, exactly).** The error of a failing `PvhBootConfigurator` says which pieces are complete, and
whether the next one has been stored up to the first unmapped address or not at all. -/
theorem C107_pvh (p : BootParams) (m : Mem) (e : PvhError) (h : (pvhWrite p m).1 = .err e) :
    LeftExactly (pvhPieces p) (pvhComplete e) (pvhCut e) m (pvhWrite p m).2 := by
  cases hb : p.sections with
  | none =>
    have he : pvhWrite p m = (.err .memmapTableMissing, m) := by unfold pvhWrite; rw [hb]; rfl
    rw [he] at h ⊢
    cases h
    exact left_stop _ (by unfold pvhCut; decide) _
  | some b =>
  cases ha : p.sectionsStart with
  | none =>
    have he : pvhWrite p m = (.err .memmapTableAddressMissing, m) := by unfold pvhWrite; rw [hb, ha]; rfl
    rw [he] at h ⊢
    cases h
    exact left_stop _ (by unfold pvhCut; decide) _
  | some a =>
  have hp : pvhPieces p = (a.toNat, b) :: (p.headerStart.toNat, p.header) ::
      optPiece p.modules p.modulesStart := by
    simp [pvhPieces, optPiece, hb, ha]
  rw [hp]
  rw [pvhWrite_eq hb ha, LM.bind_def] at h ⊢
  rcases hx : guardedWrite b a PvhError.memmapTablePastRamEnd .memmapTableSetup m with ⟨r, m₁⟩
  rw [hx] at h
  cases r with
  | panic => cases h
  | err e' =>
    cases h
    have := left_guarded (by decide) ((p.headerStart.toNat, p.header) :: optPiece p.modules p.modulesStart)
      (congrArg Prod.fst hx)
    rw [hx] at this
    rcases this with ⟨rfl | rfl, h2⟩
    · exact LinuxLoader.LeftExactly.congr h2 (by unfold pvhCut; decide)
    · exact LinuxLoader.LeftExactly.congr h2 (by unfold pvhCut; decide)
  | ok u =>
  obtain rfl := guarded_ok hx
  dsimp only at h ⊢
  have conv : ∀ {k m'}, LeftExactly ((p.headerStart.toNat, p.header) :: optPiece p.modules p.modulesStart) k
      (pvhCut e) (m.store a.toNat b) m' → LeftExactly ((a.toNat, b) :: (p.headerStart.toNat, p.header) ::
      optPiece p.modules p.modulesStart) (k + 1) (pvhCut e) m m' := left_step
  generalize m.store a.toNat b = M at *
  rw [LM.bind_def] at h ⊢
  rcases hx : guardedWrite p.header p.headerStart PvhError.startInfoPastRamEnd .startInfoSetup M with ⟨r, m₁⟩
  rw [hx] at h
  cases r with
  | panic => cases h
  | err e' =>
    cases h
    have := left_guarded (by decide) (optPiece p.modules p.modulesStart) (congrArg Prod.fst hx)
    rw [hx] at this
    rcases this with ⟨rfl | rfl, h2⟩
    · exact conv (LinuxLoader.LeftExactly.congr h2 (by unfold pvhCut; decide))
    · exact conv (LinuxLoader.LeftExactly.congr h2 (by unfold pvhCut; decide))
  | ok u =>
  obtain rfl := guarded_ok hx
  dsimp only at h ⊢
  have conv2 : ∀ {k m'}, LeftExactly (optPiece p.modules p.modulesStart) k
      (pvhCut e) (M.store p.headerStart.toNat p.header) m' → LeftExactly ((a.toNat, b) ::
      (p.headerStart.toNat, p.header) :: optPiece p.modules p.modulesStart) (k + 1 + 1) (pvhCut e) m m' :=
    fun h => conv (left_step h)
  generalize M.store p.headerStart.toNat p.header = N at *
  rcases pvhWriteModules_cases p N with ⟨q1, qe⟩ | ⟨q1, q2, qe⟩ | ⟨mb, ma, q1, q2, qe⟩
  · rw [qe] at h; cases h
  · rw [qe] at h ⊢
    cases h
    exact conv2 (left_stop _ (by unfold pvhCut; decide) _)
  · rw [qe] at h ⊢
    obtain ⟨rfl, -⟩ := left_writeSliceOr [] trivial h
    refine conv2 ?_
    have := (left_writeSliceOr (c := pvhCut .modulesSetup) [] (by unfold pvhCut; decide) h).2
    simpa only [optPiece, q1, q2] using this

/-! ## Examples -/

/-- A device tree blob of two bytes at the last address. -/
example := (C107_images ⟨.cursor [7, 8], bootMem⟩ (fun _ => rfl) (.pe .readDtbImage)).2.2 0x13ff
  (by decide +kernel)

/-- The demo bzImage where only the first three bytes of the kernel are mapped; with high memory above. -/
example := (C107_images ⟨.cursor demoBz, ⟨[⟨0, 0x43⟩], fun _ => 0, true⟩⟩ (fun _ => rfl)
    (.bz .readBzImageCompressedKernel)).1 (some 0x40) none (by decide +kernel)

example := (C107_images bzState (fun _ => rfl) .invalidKernelStartAddress).1 none (some 0x41) (by decide +kernel)

/-- A command line of which only the end is mapped, and PVH parameters whose start info is not mapped. -/
example := (C107_writes demoMem).1 0x1000 demo .commandLineCopy (by decide)

example := (C107_writes bootMem).2.1 (BootParams.new [1, 2, 3] 0x13fd) .zeroPagePastRamEnd (by decide)

example := C107_pvh ((BootParams.new [1, 2, 3] 0x2000).setSections [[4, 5]] 0x1010) bootMem
  .startInfoPastRamEnd (by decide)

example := C107_pvh (((BootParams.new [1, 2, 3] 0x1000).setSections [[4, 5]] 0x1010).setModules [[6, 7]] 0x13ff)
  bootMem .modulesSetup (by decide)

/-- In the last example memory map, start info and the first byte of the modules are in memory. -/
example : let m' := (pvhWrite (((BootParams.new [1, 2, 3] 0x1000).setSections [[4, 5]] 0x1010).setModules
      [[6, 7]] 0x13ff) bootMem).2
    [0x1010, 0x1011, 0x1000, 0x1001, 0x1002, 0x13ff, 0x1400].map m'.data = [4, 5, 1, 2, 3, 6, 0xee] := by decide

end LinuxLoader
