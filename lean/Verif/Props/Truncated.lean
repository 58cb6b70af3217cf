import Verif.Spec.Truncated
import Verif.Props.Footprint
import Verif.Props.Pe

/-!
# Truncated images (C89)

Vocabulary: `Spec/Truncated.lean`.
-/

namespace LinuxLoader
open Spec

/-! ## ELF -/

theorem take_field {img : List UInt8} {n o k : Nat} (h : o + k ≤ n) :
    leField (img.take n) o k = leField img o k := leField_take img h

theorem take_phdrAt {img : List UInt8} {n i : Nat} (h64 : 64 ≤ n)
    (h : elfPhoff img + 56 * i + 56 ≤ n) : phdrAt (img.take n) i = phdrAt img i := by
  have ho : elfPhoff (img.take n) = elfPhoff img := take_field (by omega)
  unfold phdrAt
  simp only [ho]
  rw [take_field (by omega), take_field (by omega), take_field (by omega), take_field (by omega),
    take_field (by omega)]

/-- The headers of a truncated image that has all of them. -/
theorem take_phdrs {img : List UInt8} {n : Nat} (h64 : 64 ≤ n)
    (h : ∀ i, i < elfPhnum img → elfPhoff img + 56 * i + 56 ≤ n) :
    elfPhdrs (img.take n) = elfPhdrs img := by
  have hn : elfPhnum (img.take n) = elfPhnum img := take_field (by omega)
  unfold elfPhdrs
  rw [hn]
  exact List.map_congr_left fun i hi => take_phdrAt h64 (h i (List.mem_range.1 hi))

/-- **C89 (ELF).** Whatever the reader does: if a truncated image is accepted, it is loaded exactly like
the complete image. -/
theorem C89_elf_same {koff highmem : Option GuestAddr} {s : LS} {n : Nat} {r : LoadResult}
    (h : (elfLoad koff highmem (s.truncate n)).1 = .ok r) :
    (elfLoad koff highmem s).1 = .ok r ∧
    (elfLoad koff highmem s).2.mem = (elfLoad koff highmem (s.truncate n)).2.mem := by
  have := C84_elf_trailing (ran h) (s.rd.data.drop n)
  have he : (s.truncate n).withImage ((s.truncate n).rd.data ++ s.rd.data.drop n) = s := by
    show (s.truncate n).withImage (s.rd.data.take n ++ s.rd.data.drop n) = s
    rw [List.take_append_drop]
    rfl
  rw [he] at this
  exact this

/-- Cut behind the last segment: accepted. -/
example : (elfLoad none none ((tightState (tightElf ++ [1, 2, 3])).truncate 121)).1 =
    .ok ⟨0, 1, none, .ignored⟩ := by decide +kernel

example := C89_elf_same (s := tightState (tightElf ++ [1, 2, 3])) (n := 121) (koff := none) (highmem := none)
  (r := ⟨0, 1, none, .ignored⟩) (by decide +kernel)

/-- **C89 (ELF).** An image that lacks a part of its headers or of a loadable segment is rejected. -/
theorem C89_elf_detected {koff highmem : Option GuestAddr} {s : LS} {n : Nat}
    (hlen : s.rd.data.length < ISZ) (hl : ElfLacks s.rd.data n) :
    ∃ e, (elfLoad koff highmem (s.truncate n)).1 = .err e := by
  have htl : (s.truncate n).rd.data = s.rd.data.take n := rfl
  have hlen' : (s.truncate n).rd.data.length < ISZ := by
    rw [htl, List.length_take]; omega
  cases hr : (elfLoad koff highmem (s.truncate n)).1 with
  | err e => exact ⟨e, rfl⟩
  | panic => exact absurd hr (elfLoad_no_panic hlen')
  | ok r =>
    exfalso
    obtain ⟨ho, -, -⟩ := elfLoad_ok hlen' (ran hr)
    rw [htl] at ho
    have hmin : (s.rd.data.take n).length ≤ n := by rw [List.length_take]; omega
    have h0 : ¬ (s.rd.data.take n).length < 64 := firstObstacle_none_iff.1 ho _ (.head _)
    have h64 : 64 ≤ n := by omega
    have hpc : PhdrsComplete (s.rd.data.take n) := Classical.byContradiction
      (firstObstacle_none_iff.1 ho (.elf .readProgramHeader, _) (List.mem_append_left _
        (.tail _ (.tail _ (.tail _ (.tail _ (.tail _ (.tail _ (.tail _ (.head _))))))))))
    have hpo : elfPhoff (s.rd.data.take n) = elfPhoff s.rd.data := take_field (by omega)
    have hpn : elfPhnum (s.rd.data.take n) = elfPhnum s.rd.data := take_field (by omega)
    have hp : ∀ i, i < elfPhnum s.rd.data → elfPhoff s.rd.data + 56 * i + 56 ≤ n := by
      intro i hi
      have := hpc i (by rw [hpn]; exact hi)
      rw [hpo] at this
      omega
    have hph := take_phdrs h64 hp
    rcases hl with hl | ⟨i, hi, hl⟩ | ⟨h, hh, hl⟩
    · omega
    · have := hp i hi; omega
    · have hh' : h ∈ elfLoadable (s.rd.data.take n) := by
        unfold elfLoadable at hh ⊢; rw [hph]; exact hh
      have := (loadable_facts ho h hh').1
      omega

example := C89_elf_detected (koff := none) (highmem := none) (s := tightState tightElf) (n := 120)
  (by decide +kernel) (.inr (.inr ⟨⟨1, 120, 0, 1, 1⟩, by decide +kernel, by decide⟩))

/-- The same with a reader that fails, and in a program header. -/
example := C89_elf_detected (koff := none) (highmem := none) (n := 119)
  (s := { tightState tightElf with rd := ⟨tightElf, 0, fun i => if i = 3 then .fail 1 else .ok, 0⟩ })
  (by decide +kernel) (.inr (.inl ⟨0, by decide +kernel, by decide +kernel⟩))

/-- A truncated note segment says the same, or a note is found to be incomplete. -/
theorem segmentOutcome_take (img : List UInt8) (n off size r : Nat) :
    segmentOutcome (img.take n) off size r = segmentOutcome img off size r ∨
    (segmentOutcome (img.take n) off size r = .error .readNoteHeader ∧ n < off + size + 19) := by
  by_cases hn : img.length ≤ n
  · rw [List.take_of_length_le hn]; exact .inl rfl
  have hln : (img.take n).length = n := by rw [List.length_take]; omega
  induction hk : size - r using Nat.strongRecOn generalizing r with
  | _ k ih =>
  by_cases hsz : size ≤ r
  · left
    rw [segmentOutcome.eq_def (img.take n), segmentOutcome.eq_def img, dif_pos hsz, dif_pos hsz]
  rw [segmentOutcome.eq_def (img.take n), segmentOutcome.eq_def img, dif_neg hsz, dif_neg hsz]
  dsimp only
  rw [hln]
  by_cases h12 : n < off + r + 12
  · right; rw [if_pos h12]; exact ⟨rfl, by omega⟩
  rw [if_neg h12, if_neg (show ¬ img.length < off + r + 12 by omega),
    take_field (show off + r + 4 ≤ n by omega), take_field (show off + r + 4 + 4 ≤ n by omega),
    take_field (show off + r + 8 + 4 ≤ n by omega)]
  by_cases h16 : leField img (off + r + 8) 4 = 18 ∧ leField img (off + r) 4 = 4 ∧ n < off + r + 16
  · right; rw [if_pos h16]; exact ⟨rfl, by omega⟩
  rw [if_neg h16, if_neg (show ¬ (leField img (off + r + 8) 4 = 18 ∧ leField img (off + r) 4 = 4 ∧
    img.length < off + r + 16) from fun h => h16 ⟨h.1, h.2.1, by omega⟩)]
  have hpvh : PvhAt (img.take n) (off + r) ↔ PvhAt img (off + r) := by
    unfold PvhAt
    rw [take_field (show off + r + 4 ≤ n by omega), take_field (show off + r + 8 + 4 ≤ n by omega)]
    refine and_congr_right fun h1 => and_congr_right fun h2 => ?_
    have : off + r + 16 ≤ n := Nat.le_of_not_lt fun h => h16 ⟨h1, h2, h⟩
    rw [List.drop_take, List.take_take, Nat.min_eq_left (by omega)]
  by_cases hp : PvhAt img (off + r)
  · rw [if_pos (hpvh.2 hp), if_pos hp]
    by_cases hd : leField img (off + r + 4) 4 < 4
    · left; rw [if_pos hd, if_pos hd]
    rw [if_neg hd, if_neg hd]
    by_cases h20 : n < off + r + 20
    · right; rw [if_pos h20]; exact ⟨rfl, by omega⟩
    · left
      rw [if_neg h20, if_neg (by omega), take_field (show off + r + 16 + 4 ≤ n by omega)]
  · rw [if_neg (fun h => hp (hpvh.1 h)), if_neg hp]
    split
    · left; rfl
    · exact ih _ (by omega) _ rfl

theorem firstObstacle_some_mem {ε : Type} {l : List (ε × Prop)} {e : ε} (h : FirstObstacle l (some e)) :
    ∃ P, (e, P) ∈ l ∧ P := by
  generalize hn : some e = q at h
  induction h with
  | none => cases hn
  | here hp => cases hn; exact ⟨_, .head _, hp⟩
  | later _ _ ih => obtain ⟨P, h1, h2⟩ := ih hn; exact ⟨P, .tail _ h1, h2⟩

/-- **C89 (ELF).** The error: a truncation of an image that could be loaded is reported as an unreadable
ELF header, program header, segment or note. -/
theorem C89_elf_error {koff highmem : Option GuestAddr} {s : LS} {n : Nat} {r : LoadResult} {e : LoadError}
    (hlen : s.rd.data.length < ISZ) (hff : FaultFree s) (h : (elfLoad koff highmem s).1 = .ok r)
    (he : (elfLoad koff highmem (s.truncate n)).1 = .err e) :
    (n < 64 → e = .elf .readElfHeader) ∧
    (64 ≤ n → (∃ i, i < elfPhnum s.rd.data ∧ n < elfPhoff s.rd.data + 56 * i + 56) →
      e = .elf .readProgramHeader) ∧
    (64 ≤ n → (∀ i, i < elfPhnum s.rd.data → elfPhoff s.rd.data + 56 * i + 56 ≤ n) →
      (e = .elf .readKernelImage ∧ ∃ h ∈ elfLoadable s.rd.data, n < h.offset + h.filesz) ∨
      (e = .elf .readNoteHeader ∧ koff = none ∧ ∃ h ∈ elfPhdrs s.rd.data, h.IsNote ∧
        n < h.offset + h.filesz + 19)) := by
  have htl : (s.truncate n).rd.data = s.rd.data.take n := rfl
  have hlen' : (s.truncate n).rd.data.length < ISZ := by
    rw [htl, List.length_take]; omega
  have hff' : FaultFree (s.truncate n) := hff
  have ho' := ((C62_elf_outcome_exact (highmem := highmem) (koff := koff) hlen' hff').2 e).1 he
  have ho := firstObstacle_none_iff.1 ((C62_elf_outcome_exact hlen hff).1.1 ⟨r, h⟩)
  rw [htl] at ho'
  have hm : (s.truncate n).mem = s.mem := rfl
  rw [hm] at ho'
  have hH := fun o ho1 => ho o (List.mem_append_left _ ho1)
  have hP := fun ph hph o ho1 => ho o (List.mem_append_right _ (List.mem_flatMap.2 ⟨ph, hph, ho1⟩))
  have q0 : ¬ s.rd.data.length < 64 := hH (.elf .readElfHeader, _) (.head _)
  have q1 := hH (.elf .invalidElfMagicNumber, _) (.tail _ (.head _))
  have q2 := hH (.elf .bigEndianElfOnLittle, _) (.tail _ (.tail _ (.head _)))
  have q3 := hH (.elf .invalidProgramHeaderSize, _) (.tail _ (.tail _ (.tail _ (.head _))))
  have q4 := hH (.elf .invalidProgramHeaderOffset, _) (.tail _ (.tail _ (.tail _ (.tail _ (.head _)))))
  have q5 := hH (.elf .invalidEntryAddress, _)
    (.tail _ (.tail _ (.tail _ (.tail _ (.tail _ (.head _))))))
  have q6 := hH (.elf .overflow, _) (.tail _ (.tail _ (.tail _ (.tail _ (.tail _ (.tail _ (.head _)))))))
  have hlt : (s.rd.data.take n).length = min n s.rd.data.length := List.length_take ..
  -- the header of the truncated image, if it is complete
  have hdr : 64 ≤ n → (s.rd.data.take n).take 4 = s.rd.data.take 4 ∧
      (s.rd.data.take n)[5]? = s.rd.data[5]? ∧ elfPhentsize (s.rd.data.take n) = elfPhentsize s.rd.data ∧
      elfPhoff (s.rd.data.take n) = elfPhoff s.rd.data ∧
      elfEntry (s.rd.data.take n) = elfEntry s.rd.data ∧
      elfPhnum (s.rd.data.take n) = elfPhnum s.rd.data := by
    intro h64
    refine ⟨?_, ?_, take_field (by omega), take_field (by omega), take_field (by omega),
      take_field (by omega)⟩
    · rw [List.take_take, Nat.min_eq_left (by omega)]
    · rw [List.getElem?_take_of_lt (by omega)]
  refine ⟨fun h64 => ?_, fun h64 hcut => ?_, fun h64 hc => ?_⟩
  · have h0 : FirstObstacle (elfObstacles (s.rd.data.take n) koff highmem s.mem)
        (some (.elf .readElfHeader)) := .here (by rw [hlt]; omega)
    exact Option.some.inj (firstObstacle_unique ho' h0)
  · obtain ⟨e1, e2, e3, e4, e5, e6⟩ := hdr h64
    have h0 : FirstObstacle (elfObstacles (s.rd.data.take n) koff highmem s.mem)
        (some (.elf .readProgramHeader)) := by
      refine .later (by rw [hlt]; omega) (.later (by rw [e1]; exact q1) (.later (by rw [e2]; exact q2)
        (.later (by rw [e3]; exact q3) (.later (by rw [e4]; exact q4) (.later (by rw [e5]; exact q5)
        (.later (by rw [e5]; exact q6) (.here fun hc => ?_)))))))
      obtain ⟨i, hi, hlt'⟩ := hcut
      have := hc i (by rw [e6]; exact hi)
      rw [e4, hlt] at this
      omega
    exact Option.some.inj (firstObstacle_unique ho' h0)
  · obtain ⟨e1, e2, e3, e4, e5, e6⟩ := hdr h64
    have hph := take_phdrs h64 hc
    have q7 : PhdrsComplete s.rd.data := Classical.byContradiction (hH (.elf .readProgramHeader, _)
      (.tail _ (.tail _ (.tail _ (.tail _ (.tail _ (.tail _ (.tail _ (.head _)))))))))
    obtain ⟨P, hmem, hPt⟩ := firstObstacle_some_mem ho'
    unfold elfObstacles at hmem
    rw [List.mem_append] at hmem
    rcases hmem with hmem | hmem
    · exfalso
      simp only [elfHeaderObstacles, List.mem_cons, List.not_mem_nil, or_false, Prod.mk.injEq] at hmem
      rcases hmem with ⟨-, rfl⟩ | ⟨-, rfl⟩ | ⟨-, rfl⟩ | ⟨-, rfl⟩ | ⟨-, rfl⟩ | ⟨-, rfl⟩ | ⟨-, rfl⟩ | ⟨-, rfl⟩
      · rw [hlt] at hPt; omega
      · rw [e1] at hPt; exact q1 hPt
      · rw [e2] at hPt; exact q2 hPt
      · rw [e3] at hPt; exact q3 hPt
      · rw [e4] at hPt; exact q4 hPt
      · rw [e5] at hPt; exact q5 hPt
      · rw [e5] at hPt; exact q6 hPt
      · refine hPt fun i hi => ?_
        rw [e6] at hi
        have h1 := hc i hi
        have h2 := q7 i hi
        rw [e4, hlt]
        omega
    · obtain ⟨ph, hph1, hmem⟩ := List.mem_flatMap.1 hmem
      rw [hph] at hph1
      have hP := hP ph hph1
      simp only [phdrObstacles, List.mem_cons, List.not_mem_nil, or_false, Prod.mk.injEq] at hmem hP
      have hseg := segmentOutcome_take s.rd.data n ph.offset ph.filesz 0
      rcases hmem with ⟨rfl, rfl⟩ | ⟨rfl, rfl⟩ | ⟨rfl, rfl⟩ | ⟨rfl, rfl⟩ | ⟨rfl, rfl⟩ | ⟨rfl, rfl⟩
      · obtain ⟨a, b, c⟩ := hPt
        rcases hseg with hs | ⟨-, hs⟩
        · rw [hs] at c
          exact absurd ⟨a, b, c⟩ (hP _ (.inl rfl))
        · exact .inr ⟨rfl, b, ph, hph1, a, hs⟩
      · obtain ⟨a, b, c⟩ := hPt
        rcases hseg with hs | ⟨hs, -⟩
        · rw [hs] at c
          exact absurd ⟨a, b, c⟩ (hP _ (.inr (.inl rfl)))
        · rw [hs] at c; cases c
      · obtain ⟨a, b, c⟩ := hPt
        rcases hseg with hs | ⟨hs, -⟩
        · rw [hs] at c
          exact absurd ⟨a, b, c⟩ (hP _ (.inr (.inr (.inl rfl))))
        · rw [hs] at c; cases c
      · exact absurd hPt (hP _ (.inr (.inr (.inr (.inl rfl)))))
      · obtain ⟨a, b⟩ := hPt
        have hf := hP _ (.inr (.inr (.inr (.inr (.inl rfl)))))
        refine .inl ⟨rfl, ph, List.mem_filter.2 ⟨hph1, by simpa using a⟩, ?_⟩
        rcases b with b | b
        · rw [hlt] at b
          have : ¬ s.rd.data.length < ph.offset + ph.filesz := fun hx => hf ⟨a, .inl hx⟩
          omega
        · exact absurd ⟨a, .inr b⟩ hf
      · exact absurd hPt (hP _ (.inr (.inr (.inr (.inr (.inr rfl))))))

/-- An image with one loadable segment, and a note segment at the end: the note is not the PVH note, so
its descriptor is not looked at. -/
def noteTailElf : List UInt8 :=
  mkEhdr 0 64 56 2 ++ mkPhdr 1 176 0 1 1 ++ mkPhdr 4 177 0 20 20 ++ [0xaa] ++
    (leBytes 4 4 ++ leBytes 4 4 ++ leBytes 4 1 ++ [71, 78, 85, 0] ++ [1, 2, 3, 4])

/-- All of the errors occur, and cutting off the descriptor of the note is accepted. -/
example : [10, 100, 176, 180, 189, 191, 197].map (fun n =>
      (elfLoad none none ((tightState noteTailElf).truncate n)).1) =
    [.err (.elf .readElfHeader), .err (.elf .readProgramHeader), .err (.elf .readKernelImage),
     .err (.elf .readNoteHeader), .ok ⟨0, 1, none, .notPresent⟩, .ok ⟨0, 1, none, .notPresent⟩,
     .ok ⟨0, 1, none, .notPresent⟩] := by decide +kernel

example := C89_elf_error (koff := none) (highmem := none) (s := tightState noteTailElf) (n := 180)
  (r := ⟨0, 1, none, .notPresent⟩) (e := .elf .readNoteHeader) (by decide +kernel) (fun _ => rfl)
  (by decide +kernel) (by decide +kernel)

/-! ## bzImage -/

theorem truncMapped {m : Mem} {a n k : Nat} (h : Mapped m a n) (hk : k ≤ n) : Mapped m a k :=
  fun x hx => h x ⟨hx.1, by have := hx.2; omega⟩

theorem truncAccessible {m : Mem} {a n k : Nat} (h : Accessible m a n) (hk : k ≤ n) : Accessible m a k := by
  refine ⟨truncMapped h.1 hk, fun h0 => ?_⟩
  by_cases hn : n = 0
  · exact h.2 hn
  · exact .inr (h.1 a ⟨Nat.le_refl _, by omega⟩)

theorem take_bz {img : List UInt8} {n : Nat} (hn : bzSetupBytes img ≤ n) :
    bzHeader (img.take n) = bzHeader img ∧ (BzMagicOk (img.take n) ↔ BzMagicOk img) ∧
    bzVersion (img.take n) = bzVersion img ∧ bzLoadflags (img.take n) = bzLoadflags img ∧
    bzCode32 (img.take n) = bzCode32 img ∧ bzSetupBytes (img.take n) = bzSetupBytes img ∧
    bzKernel (img.take n) = (bzKernel img).take (n - bzSetupBytes img) := by
  have hge := bzSetupBytes_ge img
  have hs : bzSetupBytes (img.take n) = bzSetupBytes img := by
    unfold bzSetupBytes bzSetupSects
    rw [take_field (by omega)]
  refine ⟨?_, ?_, take_field (by omega), take_field (by omega), take_field (by omega), hs, ?_⟩
  · unfold bzHeader
    rw [List.drop_take, List.take_take, Nat.min_eq_left (by omega)]
  · unfold BzMagicOk
    rw [List.drop_take, List.take_take, Nat.min_eq_left (by omega)]
  · unfold bzKernel
    rw [hs, List.drop_take]

/-- **C89 (bzImage; refutes that truncated images are detected).** Of an image that can be loaded,
exactly the truncations that keep the real-mode part are accepted too: the rest of the kernel is missing,
the result differs in `kernel_end` only. -/
theorem C89_bz_exact {koff highmem : Option GuestAddr} {s : LS} {n : Nat} {r : LoadResult}
    (hff : FaultFree s) (h : (bzLoad koff highmem s).1 = .ok r) (hn : n ≤ s.rd.data.length) :
    ((∃ r', (bzLoad koff highmem (s.truncate n)).1 = .ok r') ↔ bzSetupBytes s.rd.data ≤ n) ∧
    (bzSetupBytes s.rd.data ≤ n →
      (bzLoad koff highmem (s.truncate n)).1 =
        .ok { r with kernelEnd := r.kernelLoad + (n - bzSetupBytes s.rd.data) } ∧
      Stored s.mem (bzLoad koff highmem (s.truncate n)).2.mem r.kernelLoad
        ((bzKernel s.rd.data).take (n - bzSetupBytes s.rd.data))) := by
  have hns : NoShortReads s := fun i k hk => by rw [hff i] at hk; cases hk
  have hns' : NoShortReads (s.truncate n) := hns
  obtain ⟨ho, hr, -⟩ := bzLoad_ok hns (ran h)
  have htl : (s.truncate n).rd.data = s.rd.data.take n := rfl
  have key : bzSetupBytes s.rd.data ≤ n → ∃ r', (bzLoad koff highmem (s.truncate n)).1 = .ok r' := by
    intro hsn
    obtain ⟨-, e2, e3, e4, e5, e6, e7⟩ := take_bz hsn
    have ho := firstObstacle_none_iff.1 ho
    simp only [bzObstacles, List.mem_cons, List.not_mem_nil, or_false] at ho
    have hkl : (bzKernel (s.rd.data.take n)).length ≤ (bzKernel s.rd.data).length := by
      rw [e7, List.length_take]; omega
    have ha : bzAddress (s.rd.data.take n) koff = bzAddress s.rd.data koff := by
      unfold bzAddress; rw [e5]
    refine (C54_bz_outcome_exact (s := s.truncate n) hff).1.2 (firstObstacle_none_iff.2 ?_)
    rw [htl]
    intro o hm
    simp only [bzObstacles, List.mem_cons, List.not_mem_nil, or_false] at hm
    rw [e2, e3, e4, e5, e6, ha] at hm
    rcases hm with rfl | rfl | rfl | rfl | rfl
    · exact ho _ (.inl rfl)
    · simp only [List.length_take]; omega
    · exact ho _ (.inr (.inr (.inl rfl)))
    · intro hx
      exact ho _ (.inr (.inr (.inr (.inl rfl)))) fun hy => hx (truncAccessible hy hkl)
    · intro hx
      exact ho _ (.inr (.inr (.inr (.inr rfl)))) (by simp only at hx ⊢; omega)
  refine ⟨⟨fun ⟨r', hr'⟩ => ?_, key⟩, fun hsn => ?_⟩
  · obtain ⟨h1, -, -, h4⟩ := C46_bz_accepts (ran hr')
    rw [htl] at h1 h4
    have h6 : bzSetupBytes (s.rd.data.take n) = bzSetupBytes s.rd.data := by
      have h20 : 0x206 ≤ n := by
        have := congrArg List.length h1
        simp only [List.length_take, List.length_drop, List.length_cons, List.length_nil] at this
        omega
      unfold bzSetupBytes bzSetupSects
      rw [take_field (by omega)]
    rw [h6, List.length_take] at h4
    omega
  · obtain ⟨r', hr'⟩ := key hsn
    obtain ⟨e1, -, -, -, e5, e6, e7⟩ := take_bz hsn
    have ha : bzAddress (s.rd.data.take n) koff = bzAddress s.rd.data koff := by
      unfold bzAddress; rw [e5]
    obtain ⟨-, hr2, -⟩ := bzLoad_ok hns' (ran hr')
    obtain ⟨hst, -⟩ := C47_bz_kernel_in_place (ran hr')
    rw [htl, ha, e1, e7] at hr2
    rw [htl, e7] at hst
    have hk : ((bzKernel s.rd.data).take (n - bzSetupBytes s.rd.data)).length =
        n - bzSetupBytes s.rd.data := by
      unfold bzKernel
      rw [List.length_take, List.length_drop]; omega
    rw [hk] at hr2
    refine ⟨?_, ?_⟩
    · rw [hr', hr2, hr]
    · have : r'.kernelLoad = r.kernelLoad := by rw [hr2, hr]
      rw [this] at hst
      exact hst

example := C89_bz_exact (n := 1026) bzState_ff demoBz_loads (by decide +kernel)

/-- The last three bytes of the kernel are missing. -/
example : (bzLoad none (some 0x30) (bzState.truncate 1026)).1 =
      .ok ⟨0x40, 0x42, some (mkBzHdr 1 0x53726448 0x20f 1 0x40), .ignored⟩ ∧
    (bzLoad none (some 0x30) (bzState.truncate 1023)).1 = .err (.bz .underflow) ∧
    (bzLoad none (some 0x30) (bzState.truncate 0x210)).1 = .err (.bz .invalidBzImage) := by decide +kernel

/-- **C89 (bzImage).** How a VMM can detect it: if `syssize` states the size of the kernel, then the
setup header of the result says so, and the size in the result is that one exactly for the complete
image. -/
theorem C89_bz_visible {koff highmem : Option GuestAddr} {s : LS} {n : Nat} {r r' : LoadResult}
    {hdr : List UInt8} (hff : FaultFree s) (h : (bzLoad koff highmem s).1 = .ok r)
    (hn : n ≤ s.rd.data.length) (hsys : 16 * bzSyssize s.rd.data = (bzKernel s.rd.data).length)
    (h' : (bzLoad koff highmem (s.truncate n)).1 = .ok r') (hh : r'.setupHeader = some hdr) :
    r'.kernelEnd - r'.kernelLoad = 16 * leField hdr 3 4 ↔ n = s.rd.data.length := by
  have hns : NoShortReads s := fun i k hk => by rw [hff i] at hk; cases hk
  have hns' : NoShortReads (s.truncate n) := hns
  have hsn := (C89_bz_exact hff h hn).1.1 ⟨r', h'⟩
  obtain ⟨e1, -, -, -, -, -, e7⟩ := take_bz hsn
  obtain ⟨-, hr, -⟩ := bzLoad_ok hns' (ran h')
  have htl : (s.truncate n).rd.data = s.rd.data.take n := rfl
  rw [htl, e1, e7] at hr
  have hge := bzSetupBytes_ge s.rd.data
  have hf : leField hdr 3 4 = bzSyssize s.rd.data := by
    rw [hr] at hh
    cases hh
    unfold setCode32
    have hl : ((bzHeader s.rd.data).take 0x23).length = 0x23 := by
      unfold bzHeader
      rw [List.length_take, List.length_take, List.length_drop]; omega
    unfold leField bzSyssize
    rw [List.append_assoc, List.drop_append_of_le_length (by omega), List.take_append_of_le_length
      (by rw [List.length_drop]; omega)]
    unfold bzHeader leField
    rw [List.drop_take, List.take_take, List.drop_take, List.take_take, List.drop_drop]
    rfl
  have hk : (bzKernel s.rd.data).length = s.rd.data.length - bzSetupBytes s.rd.data := by
    unfold bzKernel; rw [List.length_drop]
  rw [hf, hsys, hr, List.length_take, hk]
  simp only
  omega

/-- A kernel of 32 bytes with `syssize` 2. -/
def sysBz : List UInt8 :=
  List.replicate 0x1f1 0 ++ ((mkBzHdr 1 0x53726448 0x20f 1 0x40).take 3 ++ leBytes 4 2 ++
    (mkBzHdr 1 0x53726448 0x20f 1 0x40).drop 7) ++ List.replicate (1024 - 0x1f1 - 123) 0 ++
    List.replicate 32 0xb0

example := C89_bz_visible (koff := none) (highmem := none) (s := tightState sysBz) (n := 1030)
  (hdr := (sysBz.drop 0x1f1).take 123)
  (r := ⟨0x40, 0x60, some ((sysBz.drop 0x1f1).take 123), .ignored⟩)
  (r' := ⟨0x40, 0x46, some ((sysBz.drop 0x1f1).take 123), .ignored⟩) (fun _ => rfl)
  (by decide +kernel) (by decide +kernel) (by decide +kernel) (by decide +kernel) rfl

/-! ## PE and device trees -/

/-- **C89 (`Image`; refutes that truncated images are detected).** Of an image that can be loaded,
exactly the truncations that keep the 64-byte header are accepted too; the result differs in `kernel_end`
only. -/
theorem C89_pe_exact {arch : PeArch} {koff highmem : Option GuestAddr} {s : LS} {n : Nat} {r : LoadResult}
    (hff : FaultFree s) (h : (peLoad arch koff highmem s).1 = .ok r) (hn : n ≤ s.rd.data.length) :
    ((∃ r', (peLoad arch koff highmem (s.truncate n)).1 = .ok r') ↔ 64 ≤ n) ∧
    (64 ≤ n →
      (peLoad arch koff highmem (s.truncate n)).1 = .ok { r with kernelEnd := r.kernelLoad + n } ∧
      Stored s.mem (peLoad arch koff highmem (s.truncate n)).2.mem r.kernelLoad (s.rd.data.take n)) := by
  obtain ⟨ho, hr, -⟩ := peLoad_ok (ran h)
  have htl : (s.truncate n).rd.data = s.rd.data.take n := rfl
  have hln : (s.rd.data.take n).length = n := by rw [List.length_take]; omega
  have ha : 64 ≤ n → peAddress arch (s.rd.data.take n) koff = peAddress arch s.rd.data koff := by
    intro h64
    unfold peAddress peOffset
    rw [take_field (by omega), take_field (by omega)]
  have key : 64 ≤ n → ∃ r', (peLoad arch koff highmem (s.truncate n)).1 = .ok r' := by
    intro h64
    have ho := firstObstacle_none_iff.1 ho
    simp only [peObstacles, List.mem_cons, List.not_mem_nil, or_false] at ho
    have hm : PeMagicOk arch (s.rd.data.take n) ↔ PeMagicOk arch s.rd.data := by
      unfold PeMagicOk
      rw [List.drop_take, List.take_take, Nat.min_eq_left (by omega)]
    refine (C54_pe_outcome_exact (s := s.truncate n) hff).1.2 (firstObstacle_none_iff.2 ?_)
    rw [htl]
    intro o hmem
    simp only [peObstacles, List.mem_cons, List.not_mem_nil, or_false] at hmem
    rw [hm, ha h64, hln] at hmem
    rcases hmem with rfl | rfl | rfl | rfl | rfl | rfl
    · simp only; omega
    · exact ho _ (.inr (.inl rfl))
    · exact ho _ (.inr (.inr (.inl rfl)))
    · exact ho _ (.inr (.inr (.inr (.inl rfl))))
    · intro hx
      exact ho _ (.inr (.inr (.inr (.inr (.inl rfl))))) fun hy => hx (truncMapped hy hn)
    · intro hx
      exact ho _ (.inr (.inr (.inr (.inr (.inr rfl))))) (by simp only at hx ⊢; omega)
  refine ⟨⟨fun ⟨r', hr'⟩ => ?_, key⟩, fun h64 => ?_⟩
  · obtain ⟨ho', -, -⟩ := peLoad_ok (ran hr')
    have h0 : ¬ (s.rd.data.take n).length < 64 := firstObstacle_none_iff.1 ho' _ (.head _)
    omega
  · obtain ⟨r', hr'⟩ := key h64
    obtain ⟨-, hr2, -⟩ := peLoad_ok (ran hr')
    obtain ⟨hst, -⟩ := C51_pe_image_in_place (ran hr')
    rw [htl, ha h64, hln] at hr2
    rw [htl] at hst
    refine ⟨by rw [hr', hr2, hr], ?_⟩
    have : r'.kernelLoad = r.kernelLoad := by rw [hr2, hr]
    rw [this] at hst
    exact hst

example := C89_pe_exact (n := 65) (s := ⟨⟨mkPe 0x10 1 0x644d5241, 3, fun _ => .ok, 0⟩, peMem⟩)
  (fun _ => rfl) demoPe_loads.1 (by decide +kernel)

/-- **C89 (device tree; refutes that truncated blobs are detected).** Every truncation of a blob that can
be loaded is accepted too. -/
theorem C89_dtb_accepted {a : GuestAddr} {s : LS} {n : Nat} (hff : FaultFree s)
    (h : (loadDtb a s).1 = .ok ()) :
    (loadDtb a (s.truncate n)).1 = .ok () ∧
    Stored s.mem (loadDtb a (s.truncate n)).2.mem a.toNat (s.rd.data.take n) := by
  obtain ⟨h1, h2⟩ := (C53_dtb_outcome hff).1.1 h
  have hln : (s.rd.data.take n).length ≤ s.rd.data.length := by rw [List.length_take]; omega
  have hk : (loadDtb a (s.truncate n)).1 = .ok () :=
    (C53_dtb_outcome (s := s.truncate n) hff).1.2 ⟨Nat.le_trans hln h1, truncAccessible h2 hln⟩
  exact ⟨hk, (C53_dtb_in_place (ran hk)).2.2⟩

example := C89_dtb_accepted (n := 5) (a := 0x200000)
  (s := ⟨⟨List.replicate 16 0xd0, 9, fun _ => .ok, 0⟩, peMem⟩) (fun _ => rfl) (by decide +kernel)

end LinuxLoader
