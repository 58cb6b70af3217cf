import Verif.Lemmas.Ran
import Verif.Lemmas.Config
import Verif.Props.BootParams

/-!
# Boot configurators (C28 – C33)

Vocabulary: `Spec/Pvh.lean`, `Spec/Memory.lean`.
-/

namespace LinuxLoader
open Spec

/-- One region `[0x1000, 0x1100)`. -/
def cfgMem : Mem := ⟨[⟨0x1000, 0x100⟩], fun _ => 0xAA, false⟩

theorem cfgMem_wf : cfgMem.WF := by
  constructor
  · intro r hr; simp only [cfgMem, List.mem_singleton] at hr; subst hr; decide
  · simp [cfgMem]

/-- Boot parameters with a header, a memory map and modules, disjoint and in `cfgMem`. -/
def cfgParams : BootParams :=
  ((BootParams.new [1, 2, 3] 0x1000).setSections [[4, 5]] 0x1010).setModules [[6], [7]] 0x10fe

/-- **C28.** Success of the Linux configurator: the header is at its address, nothing else has
changed. -/
theorem C28_success (p : BootParams) (m m' : Mem) (hw : m.WF)
    (h : linuxWrite p m = (.ok (), m')) : Stored m m' p.headerStart.toNat p.header := by
  rw [linuxWrite_eq] at h
  rcases guardedWrite_cases p.header p.headerStart LinuxError.zeroPagePastRamEnd .zeroPageSetup m hw
    with ⟨-, he⟩ | ⟨-, -, m1, -, he⟩ | ⟨-, -, he⟩ <;> rw [h] at he <;> cases he
  exact Mem.stored_store _ _ _

example := C28_success cfgParams cfgMem _ cfgMem_wf (ran (by decide))

/-- **C28**: sections and modules have no influence. -/
theorem C28_header_only (p q : BootParams) (h : p.header = q.header)
    (ha : p.headerStart = q.headerStart) : linuxWrite p = linuxWrite q := by
  rw [linuxWrite_eq, linuxWrite_eq, h, ha]

example := C28_header_only cfgParams (BootParams.new [1, 2, 3] 0x1000) rfl rfl

/-- **C28**, failure: `ZeroPagePastRamEnd` leaves memory unchanged, `ZeroPageSetup` may have stored a
prefix of the header in mapped memory at its address. -/
theorem C28_failure (p : BootParams) (m m' : Mem) (e : LinuxError) (hw : m.WF)
    (h : linuxWrite p m = (.err e, m')) :
    (e = .zeroPagePastRamEnd → m' = m) ∧
    (e = .zeroPageSetup → PrefixStored m m' p.headerStart.toNat p.header) := by
  rw [linuxWrite_eq] at h
  rcases guardedWrite_cases p.header p.headerStart LinuxError.zeroPagePastRamEnd .zeroPageSetup m hw
    with ⟨-, he⟩ | ⟨-, -, m1, h1, he⟩ | ⟨-, -, he⟩ <;> rw [h] at he <;> cases he
  · simp
  · exact ⟨by simp, fun _ => h1⟩

example := C28_failure (BootParams.new [1, 2, 3] 0xfff) cfgMem _ .zeroPageSetup cfgMem_wf (ran (by decide))

example : (linuxWrite cfgParams cfgMem).1 = .ok () := by decide
example : (linuxWrite (BootParams.new [1, 2, 3] 0x10fd) cfgMem).1 = .err .zeroPagePastRamEnd := by
  decide
/-- A header across a hole: `ZeroPageSetup`. -/
example : (linuxWrite (BootParams.new [1, 2, 3] 0xfff) cfgMem).1 = .err .zeroPageSetup := by decide

/-- **C29**, refuted: a header that fits exactly at the end of memory is rejected. -/
theorem C29_refuted : ∃ (p : BootParams) (m : Mem), m.WF ∧
    Mapped m p.headerStart.toNat p.header.length ∧
    (linuxWrite p m).1 = .err .zeroPagePastRamEnd := by
  refine ⟨BootParams.new [1, 2, 3] 0x10fd, cfgMem, cfgMem_wf, ?_, by decide⟩
  intro x hx
  have h1 : 0x10fd ≤ x := hx.1
  have h2 : x < 0x10fd + 3 := hx.2
  simp only [cfgMem, Mem.mapped, List.any_cons, List.any_nil, Bool.or_false, Bool.and_eq_true,
    decide_eq_true_eq]
  omega

/-- **C29**, the exact condition: the header and the byte after it must be mapped. The errors are
told apart by the byte after the header. -/
theorem C29_exact (p : BootParams) (m : Mem) (hw : m.WF) :
    (linuxWrite p m).1 ≠ .panic ∧
    ((linuxWrite p m).1 = .ok () ↔ Mapped m p.headerStart.toNat (p.header.length + 1)) ∧
    ((linuxWrite p m).1 = .err .zeroPagePastRamEnd ↔
      m.mapped (p.headerStart.toNat + p.header.length) = false) := by
  have hiff : Mapped m p.headerStart.toNat (p.header.length + 1) ↔
      Mapped m p.headerStart.toNat p.header.length ∧
      m.mapped (p.headerStart.toNat + p.header.length) = true := by
    constructor
    · intro h
      exact ⟨fun x hx => h x ⟨hx.1, by have := hx.2; omega⟩, h _ ⟨by omega, by omega⟩⟩
    · rintro ⟨h1, h2⟩ x hx
      by_cases hx' : x = p.headerStart.toNat + p.header.length
      · rw [hx']; exact h2
      · exact h1 x ⟨hx.1, by have := hx.2; omega⟩
  rw [hiff, linuxWrite_eq]
  rcases guardedWrite_cases p.header p.headerStart LinuxError.zeroPagePastRamEnd .zeroPageSetup m hw
    with ⟨h1, he⟩ | ⟨h1, h2, m1, -, he⟩ | ⟨h1, h2, he⟩ <;> rw [he] <;> simp [*]

example := C29_exact cfgParams cfgMem cfgMem_wf

/-- **C30.** The FDT configurator: exact acceptance condition, exact effect, and frame. -/
theorem C30_fdt (p : BootParams) (m : Mem) (hw : m.WF) :
    (fdtWrite p m).1 ≠ .panic ∧
    ((fdtWrite p m).1 = .ok () ↔ Mapped m p.headerStart.toNat (p.header.length + 1)) ∧
    ((fdtWrite p m).1 = .ok () → Stored m (fdtWrite p m).2 p.headerStart.toNat p.header) ∧
    ((fdtWrite p m).1 = .err .fdtPastRamEnd ↔
      m.mapped (p.headerStart.toNat + p.header.length) = false) ∧
    ((fdtWrite p m).1 = .err .fdtPastRamEnd → (fdtWrite p m).2 = m) ∧
    ((fdtWrite p m).1 = .err .writeFdtToMemory →
      PrefixStored m (fdtWrite p m).2 p.headerStart.toNat p.header) := by
  have hiff : Mapped m p.headerStart.toNat (p.header.length + 1) ↔
      Mapped m p.headerStart.toNat p.header.length ∧
      m.mapped (p.headerStart.toNat + p.header.length) = true := by
    constructor
    · intro h
      exact ⟨fun x hx => h x ⟨hx.1, by have := hx.2; omega⟩, h _ ⟨by omega, by omega⟩⟩
    · rintro ⟨h1, h2⟩ x hx
      by_cases hx' : x = p.headerStart.toNat + p.header.length
      · rw [hx']; exact h2
      · exact h1 x ⟨hx.1, by have := hx.2; omega⟩
  rw [hiff, fdtWrite_eq]
  rcases guardedWrite_cases p.header p.headerStart FdtError.fdtPastRamEnd .writeFdtToMemory m hw
    with ⟨h1, he⟩ | ⟨h1, h2, m1, h3, he⟩ | ⟨h1, h2, he⟩ <;> rw [he]
  · simp [h1]
  · simp [h1, h2, h3]
  · simp [h1, h2, Mem.stored_store]

example := C30_fdt cfgParams cfgMem cfgMem_wf

example : (fdtWrite cfgParams cfgMem).1 = .ok () := by decide

/-- **C31.** After success of the PVH configurator every address holds the byte of the last of the
pieces memory map, start info, modules that covers it, and its old contents if none does. -/
theorem C31_success (p : BootParams) (m m' : Mem) (hw : m.WF)
    (h : pvhWrite p m = (.ok (), m')) :
    SameLayout m m' ∧ ∀ x, m'.data x = (lastPiece (pvhPieces p) x).getD (m.data x) := by
  obtain ⟨r, m1, he, hl, -, ⟨-, -, hd⟩ | ⟨e, rfl, -⟩⟩ := pvhWrite_cases p m hw
  · rw [h] at he; cases he; exact ⟨hl, hd⟩
  · rw [h] at he; cases he

example := C31_success cfgParams cfgMem _ cfgMem_wf (ran (by decide))

/-- **C31** for disjoint ranges: all three can be read back. -/
theorem C31_disjoint (p : BootParams) (m m' : Mem) (hw : m.WF)
    (h : pvhWrite p m = (.ok (), m'))
    (hdis : (pvhPieces p).Pairwise fun q r => ∀ x, ¬ (InRange q.1 q.2.length x ∧ InRange r.1 r.2.length x)) :
    ∃ b a, p.sections = some b ∧ p.sectionsStart = some a ∧
      Holds m'.data a.toNat b ∧ Holds m'.data p.headerStart.toNat p.header ∧
      (∀ mb, p.modules = some mb → ∃ ma, p.modulesStart = some ma ∧ Holds m'.data ma.toNat mb) ∧
      ∀ x, ¬ InPieces (pvhPieces p) x → m'.data x = m.data x := by
  obtain ⟨r, m1, he, hl, hf, ⟨rfl, ho, hd⟩ | ⟨e, rfl, -⟩⟩ := pvhWrite_cases p m hw
  · rw [h] at he; cases he
    have key : ∀ (ps : List (Nat × List UInt8)) (q : Nat × List UInt8) (i : Nat) (v : UInt8),
        ps.Pairwise (fun q r => ∀ x, ¬ (InRange q.1 q.2.length x ∧ InRange r.1 r.2.length x)) →
        q ∈ ps → q.2[i]? = some v → lastPiece ps (q.1 + i) = some v := by
      intro ps
      induction ps with
      | nil => intro q i v _ hq; cases hq
      | cons r ps ih =>
        obtain ⟨ra, rb⟩ := r
        intro q i v hp hq hv
        obtain ⟨hi, -⟩ := List.getElem?_eq_some_iff.1 hv
        simp only [lastPiece]
        rcases List.mem_cons.1 hq with rfl | hq
        · have hnone : lastPiece ps (ra + i) = none := by
            have hd := (List.pairwise_cons.1 hp).1
            clear ih hp hq
            induction ps with
            | nil => rfl
            | cons s ps ih =>
              obtain ⟨sa, sb⟩ := s
              simp only [lastPiece]
              rw [ih (fun a' ha' => hd a' (by simp [ha']))]
              simp only
              split
              · rename_i hle
                rw [List.getElem?_eq_none]
                have := hd (sa, sb) (by simp) (ra + i)
                simp only [InRange] at this hi
                omega
              · rfl
          rw [hnone]
          simp only
          rw [if_pos (by omega)]
          rw [show ra + i - ra = i by omega]; exact hv
        · rw [ih q i v (List.pairwise_cons.1 hp).2 hq hv]
    cases hb : p.sections with
    | none => cases ho with | later h1 _ => exact absurd hb h1
    | some b =>
    cases ha : p.sectionsStart with
    | none => cases ho with | later _ ho => cases ho with | later h1 _ => exact absurd ha h1
    | some a =>
      refine ⟨b, a, rfl, rfl, ?_, ?_, ?_, hf⟩
      · intro i v hv
        rw [hd, key _ (a.toNat, b) i v hdis (by simp [pvhPieces, optPiece, hb, ha]) hv]; rfl
      · intro i v hv
        rw [hd, key _ (p.headerStart.toNat, p.header) i v hdis (by simp [pvhPieces]) hv]; rfl
      · intro mb hmb
        cases hma : p.modulesStart with
        | none =>
          obtain _ | _ | @⟨_, _, _, _, _, ho⟩ := ho
          obtain _ | _ | @⟨_, _, _, _, _, ho⟩ := ho
          obtain _ | _ | @⟨_, _, _, _, _, ho⟩ := ho
          obtain _ | _ | @⟨_, _, _, _, _, ho⟩ := ho
          obtain _ | _ | @⟨_, _, _, _, _, ho⟩ := ho
          obtain _ | _ | @⟨_, _, _, _, _, ho⟩ := ho
          obtain _ | _ | @⟨_, _, _, _, hn, ho⟩ := ho
          exact absurd ⟨by simp [hmb], hma⟩ hn
        | some ma =>
          refine ⟨ma, rfl, ?_⟩
          intro i v hv
          rw [hd, key _ (ma.toNat, mb) i v hdis (by simp [pvhPieces, optPiece, hmb, hma]) hv]; rfl
  · rw [h] at he; cases he

example : (pvhWrite cfgParams cfgMem).1 = .ok () ∧
    pvhPieces cfgParams = [(0x1010, [4, 5]), (0x1000, [1, 2, 3]), (0x10fe, [6, 7])] := by decide

example : (pvhPieces cfgParams).Pairwise fun q r =>
    ∀ x, ¬ (InRange q.1 q.2.length x ∧ InRange r.1 r.2.length x) := by
  have : pvhPieces cfgParams = [(0x1010, [4, 5]), (0x1000, [1, 2, 3]), (0x10fe, [6, 7])] := by decide
  rw [this]
  simp only [List.pairwise_cons, List.mem_cons, List.not_mem_nil, or_false, forall_eq_or_imp,
    forall_eq, List.length_cons, List.length_nil, InRange, false_implies, implies_true,
    List.Pairwise.nil, and_true]
  refine ⟨⟨?_, ?_⟩, ?_⟩ <;> intro x <;> omega

/-- **C32.** The PVH configurator reports the first obstacle, and succeeds iff there is none. -/
theorem C32_first_obstacle (p : BootParams) (m : Mem) (hw : m.WF) :
    (pvhWrite p m).1 ≠ .panic ∧
    ((pvhWrite p m).1 = .ok () ↔ FirstObstacle (pvhObstacles p m) none) ∧
    ∀ e, (pvhWrite p m).1 = .err e ↔ FirstObstacle (pvhObstacles p m) (some e) := by
  obtain ⟨r, m1, he, -, -, ⟨rfl, ho, -⟩ | ⟨e, rfl, ho, -⟩⟩ := pvhWrite_cases p m hw
  · rw [he]
    refine ⟨by simp, by simp [ho], fun e => ⟨fun h => (nomatch h), fun h => ?_⟩⟩
    cases firstObstacle_unique ho h
  · rw [he]
    refine ⟨by simp, ⟨fun h => (nomatch h), fun h => ?_⟩, fun e' => ⟨fun h => ?_, fun h => ?_⟩⟩
    · cases firstObstacle_unique ho h
    · cases h; exact ho
    · cases firstObstacle_unique ho h; rfl

example := C32_first_obstacle cfgParams cfgMem cfgMem_wf

/-- **C32**, frame: whatever the outcome, only bytes in the ranges of memory map, start info and
modules change. -/
theorem C32_frame (p : BootParams) (m : Mem) (hw : m.WF) :
    SameLayout m (pvhWrite p m).2 ∧
    ∀ x, ¬ InPieces (pvhPieces p) x → (pvhWrite p m).2.data x = m.data x := by
  obtain ⟨r, m1, he, hl, hf, -⟩ := pvhWrite_cases p m hw
  rw [he]; exact ⟨hl, hf⟩

example := C32_frame cfgParams cfgMem cfgMem_wf

/-- Every error occurs. -/
example : (pvhWrite (BootParams.new [1] 0x1000) cfgMem).1 = .err .memmapTableMissing ∧
    (pvhWrite ⟨[1], 0x1000, some [1], none, none, none⟩ cfgMem).1
      = .err .memmapTableAddressMissing ∧
    (pvhWrite ⟨[1], 0x1000, some [1], some 0x10ff, none, none⟩ cfgMem).1
      = .err .memmapTablePastRamEnd ∧
    (pvhWrite ⟨[1], 0x1000, some [1], some 0xfff, none, none⟩ cfgMem).1 = .err .memmapTableSetup ∧
    (pvhWrite ⟨[1], 0x10ff, some [1], some 0x1000, none, none⟩ cfgMem).1
      = .err .startInfoPastRamEnd ∧
    (pvhWrite ⟨[1], 0xfff, some [1], some 0x1000, none, none⟩ cfgMem).1 = .err .startInfoSetup ∧
    (pvhWrite ⟨[1], 0x1000, some [1], some 0x1000, some [1], none⟩ cfgMem).1
      = .err .modulesAddressMissing ∧
    (pvhWrite ⟨[1], 0x1000, some [1], some 0x1000, some [1], some 0x1100⟩ cfgMem).1
      = .err .modulesSetup ∧
    (pvhWrite ⟨[1], 0x1000, some [1], some 0x1000, some [1], some 0x10ff⟩ cfgMem).1 = .ok () := by
  decide

/-- **C33**, refuted: the memory map is written before the start info address is checked. -/
theorem C33_refuted : ∃ (p : BootParams) (m : Mem), m.WF ∧
    (pvhWrite p m).1 = .err .startInfoPastRamEnd ∧ (pvhWrite p m).2.data 0x1000 ≠ m.data 0x1000 :=
  ⟨⟨[1], 0x10ff, some [1], some 0x1000, none, none⟩, cfgMem, cfgMem_wf, by decide, by decide⟩

/-- **C33**, the part that holds: failures detected before the first write change nothing. -/
theorem C33_early_failure (p : BootParams) (m m' : Mem) (e : PvhError) (hw : m.WF)
    (h : pvhWrite p m = (.err e, m'))
    (he : e = .memmapTableMissing ∨ e = .memmapTableAddressMissing ∨ e = .memmapTablePastRamEnd) :
    m' = m := by
  obtain ⟨r, m1, h', -, -, ⟨rfl, -⟩ | ⟨e', rfl, -, hu⟩⟩ := pvhWrite_cases p m hw
  · rw [h] at h'; cases h'
  · rw [h] at h'; cases h'; exact hu he

example := C33_early_failure ⟨[1], 0x1000, some [1], some 0x10ff, none, none⟩ cfgMem _
  .memmapTablePastRamEnd cfgMem_wf (ran (by decide)) (.inr (.inr rfl))

end LinuxLoader
