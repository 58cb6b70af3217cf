import Verif.Lemmas.BeginningLoad

namespace LinuxLoader
open Spec

/-- With acceptable headers, what is left of `Elf::load` is the loop over the program headers. -/
theorem elfLoad_head (img : List UInt8) (koff highmem : Option GuestAddr) (p c : Nat) (m : Mem)
    (hok : FirstObstacle (elfHeaderObstacles img koff highmem) none) :
    ∃ (p' c' kl : Nat), elfLoad koff highmem (clean img p c m) =
      (loadSegments koff (elfPhdrs img) 0 .ignored >>= fun r =>
        (pure ⟨kl, r.1, none, r.2⟩ : LM LS LoadError LoadResult)) (clean img p' c' m) := by
  have key := firstObstacle_none_iff.1 hok
  have hl : ¬ img.length < 64 := key (.elf .readElfHeader, img.length < 64) (by simp [elfHeaderObstacles])
  have hhm : ¬ ∃ h, highmem = some h ∧ elfEntry img < h.toNat :=
    key (.elf .invalidEntryAddress, _) (by simp [elfHeaderObstacles])
  have hko : ¬ U64 ≤ koffBase koff + elfEntry img := key (.elf .overflow, _) (by simp [elfHeaderObstacles])
  have hpc : ¬ ¬ PhdrsComplete img := key (.elf .readProgramHeader, _) (by simp [elfHeaderObstacles])
  unfold elfLoad
  rw [LM.bind_ok (seekStart_clean img p c m _ _), LM.bind_ok (readExact_clean_ok (by omega))]
  simp only [List.drop_zero, Nat.zero_add]
  rcases validate_cases img koff highmem (by omega) with ⟨-, hv⟩ | ⟨e, hv, ho⟩
  · have f1 : ehEntry (img.take 64) = elfEntry img := leField_take img (by omega)
    have f2 : ehPhoff (img.take 64) = elfPhoff img := leField_take img (by omega)
    have f3 : ehPhnum (img.take 64) = elfPhnum img := leField_take img (by omega)
    rw [hv, f1, f2, f3, LM.bind_ok (LM.ofRes_apply _ _)]
    have hce : ∀ s, checkEntry highmem (elfEntry img) s = (.ok (), s) := by
      intro s
      unfold checkEntry
      cases highmem with
      | none => rfl
      | some h =>
        dsimp only
        have : h.toNat ≤ elfEntry img := by
          exact Nat.le_of_not_lt fun hn => hhm ⟨h, rfl, hn⟩
        rw [decide_eq_true this]
        rfl
    have hkl : ∀ s, elfKernelLoad koff (elfEntry img) s =
        (.ok (koffBase koff + elfEntry img), s) := by
      intro s
      unfold elfKernelLoad
      cases koff with
      | none => simp [koffBase]
      | some k =>
        simp only [koffBase] at hko ⊢
        unfold checkedAdd
        rw [if_pos (by omega)]
        rfl
    rw [LM.bind_ok (hce _), LM.bind_ok (hkl _), LM.bind_ok (seekStart_clean ..)]
    rcases readPhdrs_clean img m (elfPhnum img) (elfPhoff img) (c + 1 + 1 + 1) with
      ⟨hc, p', c', he⟩ | ⟨hc, p', c', he⟩
    · rw [LM.bind_ok he]
      exact ⟨p', c', _, rfl⟩
    · exact absurd hc hpc
  · have h1 := firstObstacle_append_some (l' := (elfPhdrs img).flatMap (phdrObstacles img koff m)) ho
    exact absurd (firstObstacle_unique ho hok) (fun h => nomatch h)

theorem loadSegments_append (koff : Option GuestAddr) (l l' : List Phdr) (kend : Nat) (cap : PvhCap) :
    loadSegments koff (l ++ l') kend cap =
      loadSegments koff l kend cap >>= fun r => loadSegments koff l' r.1 r.2 := by
  obtain ⟨K, hK⟩ : ∃ K : Nat × PvhCap → LM LS LoadError (Nat × PvhCap),
      K = fun r => loadSegments koff l' r.1 r.2 := ⟨_, rfl⟩
  rw [← hK]
  induction l generalizing kend cap with
  | nil => rw [hK]; rfl
  | cons h t ih =>
    rw [List.cons_append]
    clear hK
    funext s
    rw [LM.bind_def]
    unfold loadSegments
    split
    · split
      · cases koff with
        | some k => dsimp only; rw [ih, LM.bind_def]
        | none =>
          dsimp only
          rw [LM.bind_def, LM.bind_def]
          cases parseNote h s with
          | mk r s₁ => cases r with
            | ok c => dsimp only; rw [ih, LM.bind_def]
            | err e => rfl
            | panic => rfl
      · rw [ih, LM.bind_def]
    · rw [LM.bind_def, LM.bind_def]
      cases loadSegment koff h kend s with
      | mk r s₁ => cases r with
        | ok c => dsimp only; rw [ih, LM.bind_def]
        | err e => rfl
        | panic => rfl

/-- What a program header with an obstacle leaves in memory. -/
theorem loadSegments_stop (img : List UInt8) (koff : Option GuestAddr) (h : Phdr) (post : List Phdr)
    (hlen : img.length < ISZ) (hp : h.paddr < U64) (kend : Nat) (cap : PvhCap) (p c : Nat) (m : Mem)
    (e : LoadError) (ho : FirstObstacle (phdrObstacles img koff m h) (some e)) :
    (loadSegments koff (h :: post) kend cap (clean img p c m)).1 = .err e ∧
    ∃ j, Reach m (koffBase koff + h.paddr) (h.contents img).length j ∧
      (loadSegments koff (h :: post) kend cap (clean img p c m)).2.mem =
        storeAll m (stoppedPiece img koff h e j) := by
  have hlo : (h.type ≠ PT_LOAD ∨ h.filesz = 0) ↔ ¬ h.Loadable := by
    unfold Phdr.Loadable PT_LOAD; omega
  have hno : h.type = PT_NOTE ↔ h.IsNote := Iff.rfl
  unfold loadSegments
  by_cases hl : h.Loadable
  · rw [if_neg (fun hh => hlo.1 hh hl)]
    have hseg : ∃ s' j, loadSegment koff h kend (clean img p c m) = (.err e, s') ∧
        Reach m (koffBase koff + h.paddr) (h.contents img).length j ∧
        s'.mem = storeAll m (stoppedPiece img koff h e j) := by
      rcases loadSegment_clean img koff h kend p c m hp hl with ⟨ho', -⟩ | ⟨e', s', he, ho'⟩
      · exact absurd (firstObstacle_unique ho ho') (fun h => nomatch h)
      · obtain rfl : e = e' := Option.some.inj (firstObstacle_unique ho ho')
        have hnn := loadable_not_note hl
        have he0 := he
        unfold loadSegment at he
        rw [LM.bind_ok (seekStart_clean img p c m _ _), segmentAddr_eq koff h hp] at he
        by_cases ha : koffBase koff + h.paddr < U64
        · rw [if_pos ha, LM.okOr_some, LM.bind_ok (LM.pure'_apply _ _)] at he
          obtain ⟨j, hj, hm⟩ := readIntoMem_mem (koffBase koff + h.paddr) h.filesz
            (LoadError.elf .readKernelImage) (clean img h.offset (c + 1) m) (fun _ => rfl)
          refine ⟨s', j, he0, hj, ?_⟩
          rcases readIntoMem_clean img h.offset (c + 1) m (koffBase koff + h.paddr) h.filesz
            (LoadError.elf .readKernelImage) hl.2 with ⟨h1, h2, hr⟩ | ⟨h1, s₁, hr⟩
          · rw [LM.bind_ok hr] at he
            unfold checkedAdd at he
            split at he
            · cases he
            · cases he
              rfl
          · rw [LM.bind_err hr] at he
            cases he
            rw [hr] at hm
            exact hm
        · rw [if_neg ha] at he
          refine ⟨s', ?_⟩
          cases he
          obtain ⟨j, hj, -⟩ := reach_take m (koffBase koff + h.paddr) (h.contents img).length
            (h.contents img) (Nat.le_refl _)
          exact ⟨j, he0, hj, rfl⟩
    obtain ⟨s', j, he, hj, hm⟩ := hseg
    rw [LM.bind_err he]
    exact ⟨rfl, j, hj, hm⟩
  · rw [if_pos (hlo.2 hl)]
    by_cases hn : h.IsNote ∧ koff = none
    · obtain ⟨hn, rfl⟩ := hn
      rw [if_pos (hno.2 hn)]
      dsimp only
      obtain ⟨p', c', he⟩ := parseNote_clean img h p c m hlen
      rcases noteObstacles (img := img) (m := m) hn with ⟨cap', hc, ho'⟩ | ⟨e', hc, ho'⟩
      · exact absurd (firstObstacle_unique ho ho') (fun h => nomatch h)
      · obtain rfl : e = .elf e' := Option.some.inj (firstObstacle_unique ho ho')
        rw [hc] at he
        rw [LM.bind_err he]
        obtain ⟨j, hj, -⟩ := reach_take m (koffBase none + h.paddr) (h.contents img).length
          (h.contents img) (Nat.le_refl _)
        refine ⟨rfl, j, hj, ?_⟩
        have hne : e' ≠ .readKernelImage := by
          rcases segmentOutcome_error img h.offset h.filesz 0 hc with rfl | rfl | rfl <;> decide
        unfold stoppedPiece
        rw [if_neg (fun h => nomatch h), if_neg (fun h => hne (by cases h; rfl))]
        rfl
    · exact absurd (firstObstacle_unique ho (phdrObstacles_none hl hn)) (fun h => nomatch h)

end LinuxLoader
