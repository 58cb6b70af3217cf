import Verif.Lemmas.Ran
import Verif.Model.LoadCmdline
import Verif.Lemmas.Memory
import Verif.Props.CmdlineBuild

/-!
# `load_cmdline` (C19 – C21)

Vocabulary: `Spec/Memory.lean`. `c.asCString` is the rendering without the NUL terminator.
-/

namespace LinuxLoader
open Spec Cmdline

/-- A memory with a hole: `[0x1000, 0x1008)` and `[0x1010, 0x1040)`. -/
def demoMem : Mem := ⟨[⟨0x1000, 8⟩, ⟨0x1010, 0x30⟩], fun _ => 0xAA, false⟩

theorem demoMem_wf : demoMem.WF := by
  constructor
  · intro r hr
    simp only [demoMem, List.mem_cons, List.not_mem_nil, or_false] at hr
    rcases hr with rfl | rfl <;> decide
  · decide

theorem demoMem_last : IsLast demoMem 0x103f := by
  refine ⟨by decide, ?_⟩
  intro x hx
  simp only [demoMem, Mem.mapped, List.any_cons, List.any_nil, Bool.or_false, Bool.or_eq_true,
    Bool.and_eq_true, decide_eq_true_eq] at hx
  omega

/-- Every outcome of `load_cmdline`, with the memory it leaves. -/
theorem loadCmdline_cases (a : GuestAddr) (c : Cmdline) (m : Mem) :
    ((∃ e, c.asCString = .err e) ∧ loadCmdline a c m = (.err .invalidCommandLine, m)) ∨
    ∃ bs, c.asCString = .ok bs ∧
      ((U64 ≤ a.toNat + bs.length ∨ m.lastAddr < a.toNat + bs.length) ∧
        loadCmdline a c m = (.err .commandLineOverflow, m) ∨
       (a.toNat + bs.length < U64 ∧ a.toNat + bs.length ≤ m.lastAddr) ∧
        loadCmdline a c m = writeSliceOr (bs ++ [0]) a .commandLineCopy m) := by
  cases hc : c.asCString with
  | panic => exact absurd hc (C03_no_panic_render c).1
  | err e =>
    left
    refine ⟨⟨e, rfl⟩, ?_⟩
    unfold loadCmdline
    rw [hc]
    rfl
  | ok bs =>
    right
    refine ⟨bs, rfl, ?_⟩
    have hl : (bytesWithNul bs).length - 1 = bs.length := by simp [bytesWithNul]
    unfold loadCmdline
    rw [hc]
    simp only [LM.bind_def, LM.ofRes_apply, hl]
    cases ha : addrAddNat a bs.length with
    | none =>
      left
      exact ⟨.inl (addrAddNat_none.1 ha), rfl⟩
    | some e =>
      have hv := addrAddNat_some.1 ha
      have hlt : a.toNat + bs.length < U64 := by rw [← hv]; exact e.toNat_lt
      simp only [LM.okOr_some, LM.pure'_apply]
      unfold checkLastAddr
      by_cases hla : e.toNat > m.lastAddr
      · left
        rw [if_pos hla]
        exact ⟨.inr (by omega), rfl⟩
      · right
        rw [if_neg hla]
        exact ⟨⟨hlt, by omega⟩, rfl⟩

/-- **C19.** After success, guest memory holds the rendering and a 0 byte at the address, and is
otherwise unchanged. -/
theorem C19_exact (a : GuestAddr) (c : Cmdline) (m m' : Mem)
    (h : loadCmdline a c m = (.ok (), m')) :
    ∃ bs, c.asCString = .ok bs ∧ Stored m m' a.toNat (bs ++ [0]) := by
  rcases loadCmdline_cases a c m with ⟨-, h'⟩ | ⟨bs, hbs, ⟨-, h'⟩ | ⟨-, h'⟩⟩
  · rw [h] at h'; simp at h'
  · rw [h] at h'; simp at h'
  · refine ⟨bs, hbs, ?_⟩
    rw [h, writeSliceOr_eq] at h'
    simp only [Prod.mk.injEq] at h'
    obtain ⟨h1, h2⟩ := h'
    split at h1
    · rename_i hacc
      have := (Mem.writeSlice_spec m (bs ++ [0]) a).2.1 hacc
      rw [h2, this]
      exact Mem.stored_store _ _ _
    · cases h1

example := C19_exact 0x1010 demo demoMem _ (ran (by decide))

/-- **C19** spelled out by character: the text of the command line in UTF-8, then NUL. -/
theorem C19_text (a : GuestAddr) (c : Cmdline) (m m' : Mem)
    (h : loadCmdline a c m = (.ok (), m')) :
    Stored m m' a.toNat ((text c.bootArgs c.initArgs).utf8 ++ [0]) := by
  obtain ⟨bs, hbs, hs⟩ := C19_exact a c m m' h
  rwa [asCString_ok hbs] at hs

example := C19_text 0x1010 demo demoMem _ (ran (by decide))

example : Reachable demo ∧ (loadCmdline 0x1010 demo demoMem).1 = .ok () :=
  ⟨demo_reachable, by decide⟩

/-- **C20.** `load_cmdline` never panics and its outcome is determined as follows. -/
theorem C20_decision (a : GuestAddr) (c : Cmdline) (m : Mem) (hw : m.WF) :
    (loadCmdline a c m).1 ≠ .panic ∧
    ((loadCmdline a c m).1 = .err .invalidCommandLine ↔ ∃ e, c.asCString = .err e) ∧
    ((loadCmdline a c m).1 = .ok () ↔
      ∃ bs, c.asCString = .ok bs ∧ Mapped m a.toNat (bs.length + 1)) ∧
    ∀ L, IsLast m L →
      ((loadCmdline a c m).1 = .err .commandLineOverflow ↔
        ∃ bs, c.asCString = .ok bs ∧ L < a.toNat + bs.length) ∧
      ((loadCmdline a c m).1 = .err .commandLineCopy ↔
        ∃ bs, c.asCString = .ok bs ∧ a.toNat + bs.length ≤ L ∧
          ∃ x, InRange a.toNat (bs.length + 1) x ∧ m.mapped x = false) := by
  have hmap : ∀ bs : List UInt8, Mapped m a.toNat (bs.length + 1) →
      a.toNat + bs.length < U64 ∧ a.toNat + bs.length ≤ m.lastAddr := by
    intro bs hm
    have hx := hm (a.toNat + bs.length) ⟨by omega, by omega⟩
    exact ⟨by have := Mem.mapped_lt hw hx; omega, Mem.le_lastAddr hx⟩
  rcases loadCmdline_cases a c m with ⟨⟨e, he⟩, h'⟩ | ⟨bs, hbs, ⟨hov, h'⟩ | ⟨hov, h'⟩⟩
  · rw [h', he]; simp
  · rw [h', hbs]
    simp only [ne_eq, reduceCtorEq, not_false_eq_true, Res.ok.injEq, exists_eq_left', true_and,
      exists_false, false_iff, true_iff]
    refine ⟨by simp, ?_, ?_⟩
    · intro hm
      have := hmap bs hm
      omega
    · intro L hL
      have := Mem.lastAddr_eq hw hL
      have := Mem.mapped_lt hw hL.1
      refine ⟨by omega, by simp; intro hh; omega⟩
  · rw [h', hbs, writeSliceOr_eq]
    simp only [Res.ok.injEq, exists_eq_left']
    have hlen : (bs ++ [0] : List UInt8).length = bs.length + 1 := by simp
    have hacc : m.canAccess a.toNat (bs ++ [0] : List UInt8).length = true ↔
        Mapped m a.toNat (bs.length + 1) := by
      rw [Mem.canAccess_iff, hlen]
      exact ⟨fun h => h.1, fun h => ⟨h, by simp⟩⟩
    cases hca : m.canAccess a.toNat (bs ++ [0] : List UInt8).length with
    | true =>
      have hm := hacc.1 hca
      simp only [↓reduceIte, ne_eq, reduceCtorEq, not_false_eq_true, exists_false, true_and,
        false_iff, true_iff]
      refine ⟨hm, ?_⟩
      intro L hL
      have := Mem.lastAddr_eq hw hL
      refine ⟨by omega, ?_⟩
      rintro ⟨-, x, hx, hx'⟩
      rw [hm x hx] at hx'; cases hx'
    | false =>
      have hm : ¬ Mapped m a.toNat (bs.length + 1) := by
        intro h; rw [hacc.2 h] at hca; cases hca
      simp only [Bool.false_eq_true, ↓reduceIte, ne_eq, reduceCtorEq, not_false_eq_true,
        Res.err.injEq, exists_false, true_and, false_iff, true_iff]
      refine ⟨hm, ?_⟩
      intro L hL
      have := Mem.lastAddr_eq hw hL
      refine ⟨by omega, by omega, ?_⟩
      apply Classical.byContradiction
      intro hno
      apply hm
      intro x hx
      cases hxm : m.mapped x with
      | true => rfl
      | false => exact absurd ⟨x, hx, hxm⟩ hno

example := (C20_decision 0x1000 demo demoMem demoMem_wf).2.2.2 0x103f demoMem_last

/-- **C20.** Guest memory without any region has no last address; `last_addr` is 0 then. -/
theorem C20_no_memory (a : GuestAddr) (c : Cmdline) (m : Mem) (hw : m.WF) (hm : ∀ x, m.mapped x = false)
    (bs : List UInt8) (hc : c.asCString = .ok bs) :
    loadCmdline a c m =
      (.err (if a = 0 ∧ bs = [] then .commandLineCopy else .commandLineOverflow), m) := by
  have hr : m.regions = [] := by
    cases hr : m.regions with
    | nil => rfl
    | cons r l =>
      have h1 : r ∈ m.regions := by rw [hr]; exact .head _
      have := (hw.1 r h1).1
      have h2 : m.mapped r.start = true := (m.mapped_iff _).2 ⟨r, h1, by omega, by omega⟩
      rw [hm] at h2; cases h2
  have hl : m.lastAddr = 0 := by unfold Mem.lastAddr; rw [hr]; rfl
  rcases loadCmdline_cases a c m with ⟨⟨e, he⟩, -⟩ | ⟨bs', hbs, ⟨hov, h'⟩ | ⟨hov, h'⟩⟩
  · rw [hc] at he; cases he
  · rw [hc] at hbs; cases hbs
    rw [h', if_neg]
    rintro ⟨rfl, rfl⟩
    simp [hl, U64] at hov
  · rw [hc] at hbs; cases hbs
    rw [hl] at hov
    have ha : a = 0 := UInt64.toNat_inj.1 (show a.toNat = 0 by omega)
    have hb : bs = [] := List.eq_nil_of_length_eq_zero (by omega)
    subst ha hb
    rw [h', if_pos ⟨rfl, rfl⟩, writeSliceOr_eq]
    have hca : m.canAccess (0 : GuestAddr).toNat ([] ++ [0] : List UInt8).length = false := by
      rw [Bool.eq_false_iff]
      intro h
      have := (Mem.canAccess_iff.1 h).1 0 ⟨Nat.le_refl _, by simp⟩
      rw [hm] at this; cases this
    rw [hca]
    refine Prod.ext rfl ?_
    rcases m with ⟨rs, d, eo⟩
    simp only at hr
    subst hr
    rfl

example := C20_no_memory 0x1000 demo ⟨[], fun _ => 0, false⟩ ⟨fun _ h => (nomatch h), .nil⟩ (fun _ => rfl)
  [97, 61, 98, 32, 45, 45, 32, 120] (by decide)

/-- The four outcomes all occur: `demo` renders to 8 bytes and a NUL. -/
example : (loadCmdline 0x1010 demo demoMem).1 = .ok () ∧
    (loadCmdline 0x1037 demo demoMem).1 = .ok () ∧
    (loadCmdline 0x1038 demo demoMem).1 = .err .commandLineOverflow ∧
    (loadCmdline 0x1000 demo demoMem).1 = .err .commandLineCopy ∧
    (loadCmdline 0x1010 ⟨[], "x".toList, 9⟩ demoMem).1 = .err .invalidCommandLine := by decide

/-- **C21.** A failed call leaves memory unchanged, except that after `CommandLineCopy` a part of
the command line that fits into mapped memory may have been stored at the address. -/
theorem C21_failure_frame (a : GuestAddr) (c : Cmdline) (m m' : Mem) (e : CmdlineLoadError)
    (h : loadCmdline a c m = (.err e, m')) :
    (e = .invalidCommandLine ∨ e = .commandLineOverflow → m' = m) ∧
    (e = .commandLineCopy →
      ∃ bs, c.asCString = .ok bs ∧ PrefixStored m m' a.toNat (bs ++ [0])) := by
  rcases loadCmdline_cases a c m with ⟨-, h'⟩ | ⟨bs, hbs, ⟨-, h'⟩ | ⟨-, h'⟩⟩
  · rw [h] at h'; cases h'; simp
  · rw [h] at h'; cases h'; simp
  · rw [h, writeSliceOr_eq] at h'
    simp only [Prod.mk.injEq] at h'
    obtain ⟨h1, h2⟩ := h'
    split at h1
    · cases h1
    · cases h1
      refine ⟨by simp, fun _ => ⟨bs, hbs, ?_⟩⟩
      rw [h2]
      exact (Mem.writeSlice_spec m (bs ++ [0]) a).2.2

example := C21_failure_frame 0x1004 demo demoMem _ .commandLineCopy (ran (by decide))

/-- **C21**: no outcome changes a byte outside the range of the command line, or an unmapped one, or
the regions. -/
theorem C21_frame (a : GuestAddr) (c : Cmdline) (m : Mem) :
    SameLayout m (loadCmdline a c m).2 ∧
    ∀ x, (∀ bs, c.asCString = .ok bs → ¬ InRange a.toNat (bs.length + 1) x ∨ m.mapped x = false) →
      (loadCmdline a c m).2.data x = m.data x := by
  rcases loadCmdline_cases a c m with ⟨-, h'⟩ | ⟨bs, hbs, ⟨-, h'⟩ | ⟨-, h'⟩⟩
  · rw [h']; exact ⟨⟨rfl, rfl⟩, fun _ _ => rfl⟩
  · rw [h']; exact ⟨⟨rfl, rfl⟩, fun _ _ => rfl⟩
  · rw [h', writeSliceOr_eq]
    obtain ⟨k, hk, hm, hs⟩ := (Mem.writeSlice_spec m (bs ++ [0]) a).2.2
    refine ⟨hs.1, ?_⟩
    intro x hx
    apply hs.2.2
    intro hin
    have hlen : ((bs ++ [0] : List UInt8).take k).length = k := by
      rw [List.length_take]; omega
    rw [hlen] at hin
    have hk' : k ≤ bs.length + 1 := by simpa using hk
    rcases hx bs hbs with h | h
    · exact h ⟨hin.1, by have := hin.2; omega⟩
    · rw [hm x hin] at h; cases h

/-- A failing load that has really written something: the part up to the hole. -/
example : (loadCmdline 0x1004 demo demoMem).1 = .err .commandLineCopy ∧
    (loadCmdline 0x1004 demo demoMem).2.data 0x1004 = 97 ∧
    (loadCmdline 0x1004 demo demoMem).2.data 0x1008 = 0xAA := by decide

end LinuxLoader
