import Verif.Spec.Contract
import Verif.Props.Probe
import Verif.Props.Entry

/-!
# What the arguments of `KernelLoader::load` mean, for every loader (C104)

A VMM generic over the loader passes `kernel_offset` and `highmem_start_address` without knowing the format.
Vocabulary: `Spec/Contract.lean`, `Format` of `Spec/Probe.lean`.
-/

namespace LinuxLoader
open Spec

/-- `x` behaves as `y`, or fails with `e` before anything is stored. -/
def Gate {α : Type} (e : LoadError) (x y : LM LS LoadError α) (s : LS) : Prop :=
  x s = y s ∨ ((x s).1 = .err e ∧ (x s).2.mem = s.mem)

theorem Gate.bind {α β : Type} {e : LoadError} {x : LM LS LoadError α} {f g : α → LM LS LoadError β} {s : LS}
    (h : ∀ a s', x s = (.ok a, s') → s'.mem = s.mem ∧ Gate e (f a) (g a) s') : Gate e (x >>= f) (x >>= g) s := by
  unfold Gate
  rw [LM.bind_def, LM.bind_def]
  rcases hx : x s with ⟨r, s'⟩
  cases r with
  | ok a =>
    obtain ⟨hm, hg⟩ := h a s' hx
    rcases hg with hg | hg
    · exact .inl hg
    · exact .inr ⟨hg.1, hg.2.trans hm⟩
  | err e => exact .inl rfl
  | panic => exact .inl rfl

theorem Gate.check {α : Type} {e : LoadError} {x y : LM LS LoadError Unit} {f : Unit → LM LS LoadError α} {s : LS}
    (h : x s = y s ∨ x s = (.err e, s)) : Gate e (x >>= f) (y >>= f) s := by
  unfold Gate
  rw [LM.bind_def, LM.bind_def]
  rcases h with h | h
  · exact .inl (by rw [h])
  · exact .inr (by rw [h]; exact ⟨rfl, rfl⟩)

theorem ofRes_mem {α : Type} {r : Res LoadError α} {s s' : LS} {a : α}
    (h : (LM.ofRes r : LM LS LoadError α) s = (.ok a, s')) : s' = s := by
  cases h; rfl

theorem readExact_mem_eq {ε : Type} {n : Nat} {e : ε} {s s' : LS} {b : List UInt8}
    (h : readExact n e s = (.ok b, s')) : s'.mem = s.mem := by
  unfold readExact at h
  split at h
  · cases h
  · cases h; rfl

theorem readVolatile_mem_eq {ε : Type} {n : Nat} {e : ε} {s s' : LS} {b : List UInt8}
    (h : readVolatile n e s = (.ok b, s')) : s'.mem = s.mem := by
  unfold readVolatile at h
  split at h <;> cases h <;> rfl

theorem checkEntry_le {hm hm' : Option GuestAddr} (hle : highBound hm ≤ highBound hm') (entry : Nat) (s : LS) :
    checkEntry hm' entry s = checkEntry hm entry s ∨ checkEntry hm' entry s = (.err (.elf .invalidEntryAddress), s) := by
  unfold highBound at hle
  unfold checkEntry LM.require
  rcases hm with _ | k <;> rcases hm' with _ | k' <;> simp only [Option.elim] at hle ⊢
  · exact .inl trivial
  · by_cases h : k'.toNat ≤ entry
    · left; simp only [h, decide_true, if_true]; rfl
    · right; simp only [h, decide_false]; rfl
  · have : k.toNat ≤ entry := by omega
    left; simp only [this, decide_true, if_true]; rfl
  · by_cases h : k'.toNat ≤ entry
    · have h2 : k.toNat ≤ entry := by omega
      left; simp only [h, h2]
    · right; simp only [h, decide_false]; rfl

theorem bzCheck_le {hm hm' : Option GuestAddr} (hle : highBound hm ≤ highBound hm') (entry : Nat) (s : LS) :
    bzCheckHighmem hm' entry s = bzCheckHighmem hm entry s ∨
    bzCheckHighmem hm' entry s = (.err .invalidKernelStartAddress, s) := by
  unfold highBound at hle
  unfold bzCheckHighmem LM.require
  rcases hm with _ | k <;> rcases hm' with _ | k' <;> simp only [Option.elim] at hle ⊢
  · exact .inl trivial
  · by_cases h : k'.toNat ≤ entry
    · left; simp only [h, decide_true, if_true]; rfl
    · right; simp only [h, decide_false]; rfl
  · have : k.toNat ≤ entry := by omega
    left; simp only [this, decide_true, if_true]; rfl
  · by_cases h : k'.toNat ≤ entry
    · have h2 : k.toNat ≤ entry := by omega
      left; simp only [h, h2]
    · right; simp only [h, decide_false]; rfl

/-- **C104.** The bound is a filter and nothing else: with a higher bound a load does exactly what it does with a
lower one (or with none), to the reader, to guest memory and in its result, or it fails with the error for images
below the bound and has stored nothing. Whatever the reader does. -/
theorem C104_filter (f : Format) (koff : Option GuestAddr) {hm hm' : Option GuestAddr}
    (hle : highBound hm ≤ highBound hm') (s : LS) :
    f.load koff hm' s = f.load koff hm s ∨
    ((f.load koff hm' s).1 = .err f.tooLow ∧ (f.load koff hm' s).2.mem = s.mem) := by
  cases f with
  | pe arch => exact .inl rfl
  | elf =>
    show Gate _ (elfLoad koff hm') (elfLoad koff hm) s
    unfold elfLoad
    refine Gate.bind fun _ s1 h1 => ⟨by rw [seekStart_eq_ok h1], Gate.bind fun eh s2 h2 => ⟨readExact_mem_eq h2,
      Gate.bind fun _ s3 h3 => ⟨by rw [ofRes_mem h3], Gate.check (checkEntry_le hle _ _)⟩⟩⟩
  | bz =>
    show Gate _ (bzLoad koff hm') (bzLoad koff hm) s
    unfold bzLoad bzRest
    refine Gate.bind fun _ s1 h1 => ⟨by rw [(seekEnd_eq_ok h1).2], Gate.bind fun _ s2 h2 => ⟨by rw [seekStart_eq_ok h2],
      Gate.bind fun h s3 h3 => ⟨readVolatile_mem_eq h3, Gate.bind fun _ s4 h4 => ⟨by rw [(LM.require_eq_ok.1 h4).2],
      Gate.bind fun _ s5 h5 => ⟨by rw [(LM.require_eq_ok.1 h5).2], Gate.bind fun _ s6 h6 =>
      ⟨by rw [(LM.okOr_eq_ok.1 h6).2], Gate.bind fun _ s7 h7 => ⟨by rw [(LM.okOr_eq_ok.1 h7).2],
      Gate.check (bzCheck_le hle _ _)⟩⟩⟩⟩⟩⟩⟩

/-- **C104.** No bound is the bound 0. -/
theorem C104_no_bound (f : Format) (koff : Option GuestAddr) (s : LS) :
    f.load koff (some 0) s = f.load koff none s := by
  cases f with
  | pe arch => rfl
  | elf =>
    have : ∀ e, checkEntry (some 0) e = checkEntry none e := fun e => by
      unfold checkEntry LM.require; rfl
    show elfLoad koff (some 0) s = elfLoad koff none s
    unfold elfLoad
    simp only [this]
  | bz =>
    have : ∀ e, bzCheckHighmem (some 0) e = bzCheckHighmem none e := fun e => by
      unfold bzCheckHighmem LM.require; rfl
    show bzLoad koff (some 0) s = bzLoad koff none s
    unfold bzLoad bzRest
    simp only [this]

theorem FirstObstacle.mem {ε : Type} {l : List (ε × Prop)} {e : ε} (h : FirstObstacle l (some e)) :
    ∃ P, (e, P) ∈ l ∧ P := by
  generalize hr : some e = r at h
  induction h with
  | none => cases hr
  | here hp => cases hr; exact ⟨_, .head _, hp⟩
  | later _ _ ih => obtain ⟨P, hm, hp⟩ := ih hr; exact ⟨P, .tail _ hm, hp⟩

/-- **C104.** On a reader without faults: the bound matters exactly for recognised images whose start is below it.
Images that start at or above it, and all images of a format without a start, are loaded as without a bound; so the
image is refused as too low iff it starts below the bound (and nothing else is wrong that is found earlier). -/
theorem C104_exact (f : Format) (koff : Option GuestAddr) (h : GuestAddr) {s : LS} (hff : FaultFree s)
    (hlen : s.rd.data.length < ISZ) :
    ((∀ a, f.start s.rd.data = some a → h.toNat ≤ a) → f.load koff (some h) s = f.load koff none s) ∧
    (∀ a, f.start s.rd.data = some a → a < h.toNat → f.Recognises s.rd.data →
      (f.load koff (some h) s).1 = .err f.tooLow ∧ (f.load koff (some h) s).2.mem = s.mem) := by
  constructor
  · intro ha
    rcases C104_filter f koff (hm := none) (hm' := some h) (by simp [highBound]) s with hf | ⟨he, -⟩
    · exact hf
    · exfalso
      cases f with
      | pe arch =>
        obtain ⟨P, hm, -⟩ := FirstObstacle.mem ((C54_pe_outcome_exact (highmem := some h) hff).2 _ |>.1 he)
        simp [peObstacles, Format.tooLow] at hm
      | elf =>
        obtain ⟨P, hm, hp⟩ := FirstObstacle.mem ((C62_elf_outcome_exact hlen hff).2 _ |>.1 he)
        have := ha _ rfl
        unfold elfObstacles at hm
        rcases List.mem_append.1 hm with hm | hm
        · simp [elfHeaderObstacles, Format.tooLow] at hm
          exact absurd (hm.1 hp) (by omega)
        · obtain ⟨ph, -, hm⟩ := List.mem_flatMap.1 hm
          simp [phdrObstacles, Format.tooLow] at hm
      | bz =>
        obtain ⟨P, hm, hp⟩ := FirstObstacle.mem ((C54_bz_outcome_exact hff).2 _ |>.1 he)
        have := ha _ rfl
        simp [bzObstacles, Format.tooLow] at hm
        exact absurd (hm.1 hp) (by omega)
  · intro a hs hlt hr
    cases f with
    | pe arch => cases hs
    | elf => cases hs; exact C39_elf_highmem_error hlen hff hr hlt
    | bz =>
      cases hs
      refine C50_bz_below_highmem hff ?_ hlt
      obtain ⟨h1, h2, h3, h4⟩ := hr
      rintro (h | h | h | h)
      · exact h h1
      all_goals omega

theorem readVolatile_clean {ε : Type} (e : ε) (img : List UInt8) (c : Nat) (m : Mem) :
    readVolatile 123 e (clean img 0x1f1 c m) =
      (.ok (bzBuf img 123), clean img (0x1f1 + ((img.drop 0x1f1).take 123).length) (c + 1) m) := by
  unfold readVolatile bzBuf bzHeader
  simp [clean, Reader.rest, Reader.tick, List.take_take]

/-- **C104.** Leaving out `kernel_offset`: for a bzImage it is the image's `code32_start`, for arm64 and riscv64
images it is 0; for ELF images it is 0 too as far as memory and addresses are concerned, but with an offset, be it 0,
notes are not looked at: the PVH entry point is not reported. -/
theorem C104_default_offset {highmem : Option GuestAddr} {s : LS} :
    (∀ arch, peLoad arch none highmem s = peLoad arch (some 0) highmem s) ∧
    (FaultFree s → bzLoad none highmem s = bzLoad (some (UInt64.ofNat (bzCode32 s.rd.data))) highmem s) ∧
    (FaultFree s → s.rd.data.length < ISZ → ∀ r s', elfLoad none highmem s = (.ok r, s') →
      ∃ s'', elfLoad (some 0) highmem s = (.ok { r with pvh := .ignored }, s'') ∧ s''.mem = s'.mem) := by
  refine ⟨fun arch => rfl, fun hff => ?_, fun hff hlen r s' h => ?_⟩
  · have hc : bzCode32 s.rd.data < 2 ^ 32 := leField_lt s.rd.data 0x214 4
    have hk : (UInt64.ofNat (bzCode32 s.rd.data)).toNat = bzCode32 s.rd.data := by
      rw [UInt64.toNat_ofNat']; omega
    generalize hi : s.rd.data = img at hc hk ⊢
    rw [faultFree_eq_clean hff, hi]
    unfold bzLoad
    rw [LM.bind_ok (seekEnd_clean _ _ _ _ _), LM.bind_ok (seekEnd_clean _ _ _ _ _),
      LM.bind_ok (seekStart_clean _ _ _ _ _ _), LM.bind_ok (seekStart_clean _ _ _ _ _ _),
      LM.bind_ok (readVolatile_clean _ _ _ _), LM.bind_ok (readVolatile_clean _ _ _ _)]
    unfold bzRest bzMemOffset
    simp only [(bzBuf_full img).2.2.2.1, hk]
  · obtain ⟨ho, hr, hm⟩ := elfLoad_ok hlen h
    have hb : koffBase (some 0) = koffBase none := rfl
    have ho' : FirstObstacle (elfObstacles s.rd.data (some 0) highmem s.mem) none := by
      rw [firstObstacle_none_iff] at ho ⊢
      intro o hin
      rcases List.mem_append.1 hin with hin | hin
      · exact ho o (List.mem_append_left _ (by simpa only [elfHeaderObstacles, hb] using hin))
      · obtain ⟨ph, hph, hin⟩ := List.mem_flatMap.1 hin
        by_cases hn : o.1 = .elf .readNoteHeader ∨ o.1 = .elf .overflow ∨ o.1 = .elf .invalidPvhNote
        · simp only [phdrObstacles, List.mem_cons, List.not_mem_nil, or_false] at hin
          rcases hin with rfl | rfl | rfl | rfl | rfl | rfl <;> simp at hn ⊢
        · refine ho o (List.mem_append_right _ (List.mem_flatMap.2 ⟨ph, hph, ?_⟩))
          simp only [phdrObstacles, List.mem_cons, List.not_mem_nil, or_false, hb] at hin ⊢
          rcases hin with rfl | rfl | rfl | hin
          · simp at hn
          · simp at hn
          · simp at hn
          · exact .inr (.inr (.inr hin))
    obtain ⟨r', hr'⟩ := (C62_elf_outcome_exact hlen hff).1.2 ho'
    have hrun := ran hr'
    obtain ⟨-, hq, hm'⟩ := elfLoad_ok hlen hrun
    have hp := C42_pvh_ignored_with_offset hlen hrun
    refine ⟨_, ?_, hm'.trans hm.symm⟩
    rw [hrun]
    congr 2
    rw [hq] at hp ⊢
    rw [hr]
    simp only at hp
    rw [hp]
    rfl

/-- **C104.** Leaving out `kernel_offset` is not the same as the offset 0 for ELF images: notes that would make the
load fail are not looked at with an offset. -/
theorem C104_offset_zero_refuted : ∃ s : LS, FaultFree s ∧ (elfLoad (some 0) none s).1.isOk = true ∧
    (elfLoad none none s).1 = .err (.elf .invalidPvhNote) ∧
    ∃ (t : LS) (r : LoadResult) (a : Nat), FaultFree t ∧ (elfLoad none none t).1 = .ok r ∧ r.pvh = .present a ∧
      (elfLoad (some 0) none t).1 = .ok { r with pvh := .ignored } :=
  ⟨⟨.cursor badNoteElf, elfMem⟩, fun _ => rfl, by decide +kernel, by decide +kernel, demoState,
    ⟨0x10, 0x43, none, .present 0x1000000⟩, 0x1000000, fun _ => rfl, demoElf_loads, rfl, by decide +kernel⟩

/-- **C104.** What a result tells, whatever the loader: a setup header is returned exactly for bzImages; a PVH
capability other than "ignored" only for ELF images loaded without an offset; all addresses are addresses. Except for
ELF images everything stored lies in `kernel_load .. kernel_end`, and guest memory exists there. -/
theorem C104_result {f : Format} {koff highmem : Option GuestAddr} {s s' : LS} {r : LoadResult}
    (hlen : s.rd.data.length < ISZ) (h : f.load koff highmem s = (.ok r, s')) :
    (r.setupHeader.isSome = true ↔ f = .bz) ∧ (r.pvh ≠ .ignored → f = .elf ∧ koff = none) ∧
    r.kernelLoad < U64 ∧ r.kernelEnd < U64 ∧
    (f ≠ .elf → r.kernelLoad ≤ r.kernelEnd ∧ Mapped s.mem r.kernelLoad (r.kernelEnd - r.kernelLoad) ∧
      ∀ x, ¬ (r.kernelLoad ≤ x ∧ x < r.kernelEnd) → s'.mem.data x = s.mem.data x) := by
  cases f with
  | elf =>
    obtain ⟨-, h1, -, h2, h3⟩ := C37_elf_result_fields hlen h
    refine ⟨by rw [h3]; simp, fun hp => ⟨rfl, ?_⟩, h1, h2, fun hn => absurd rfl hn⟩
    cases koff with
    | none => rfl
    | some k => exact absurd (C42_pvh_ignored_with_offset hlen h) hp
  | bz =>
    obtain ⟨h1, h2, h3, h4, h5, -⟩ := C47_bz_kernel_in_place h
    obtain ⟨k, -, -, hr, -⟩ := bzLoad_ok_any h
    refine ⟨by rw [hr]; simp, fun hp => absurd h5 hp, by omega, h4, fun _ => ⟨by omega, ?_, fun x hx => ?_⟩⟩
    · rw [h3, Nat.add_sub_cancel_left]; exact h2
    · exact h1.2.2 x (by unfold InRange; omega)
  | pe arch =>
    obtain ⟨h1, h2, -, h3, h4, h5, h6⟩ := C51_pe_image_in_place (highmem := highmem) h
    refine ⟨by rw [h5]; simp, fun hp => absurd h6 hp, by omega, h4, fun _ => ⟨by omega, ?_, fun x hx => ?_⟩⟩
    · rw [h3, Nat.add_sub_cancel_left]; exact h2
    · exact h1.2.2 x (by unfold InRange; omega)

example := C104_filter .elf (some 0x30) (hm := some 0x8) (hm' := some 0x11) (by decide) demoState
example := C104_exact .elf none 0x11 (s := demoState) (fun _ => rfl) demoElf_short
/-- The demo image starts at 0x10: the bounds 0x8 and 0x10 accept it, the bound 0x11 does not. -/
example : (Format.elf).start demoElf = some 0x10 ∧ (elfLoad none (some 0x10) demoState).1.isOk = true ∧
    (elfLoad none (some 0x11) demoState).1 = .err (.elf .invalidEntryAddress) := by decide +kernel
example := C104_result (f := .elf) demoElf_short (ran demoElf_loads)
example := C104_result (f := .bz) (s := bzState) (by decide +kernel) (ran demoBz_loads)

end LinuxLoader
