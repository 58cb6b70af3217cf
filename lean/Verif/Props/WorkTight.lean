import Verif.Props.Work
import Verif.Props.Build

/-!
# Images that take quadratic work (C75)

The bound of `C75_elf_work` is of the right order: a note segment full of empty notes takes two
operations for every 12 bytes, and any number of program headers may point to the same note segment.
-/

namespace LinuxLoader
open Spec

theorem zeros_field {img : List UInt8} {o k n : Nat} (h : At img o (List.replicate k 0)) {j : Nat}
    (hj : j + n ≤ k) : leField img (o + j) n = 0 := by
  have h0 := h.part (p := List.replicate j 0) (q := leBytes n 0) (r := List.replicate (k - j - n) 0) (by
    have hz : ∀ n, leBytes n 0 = List.replicate n 0 := by
      intro n
      induction n with
      | zero => rfl
      | succ n ih =>
        show UInt8.ofNat 0 :: leBytes n (0 / 256) = _
        rw [Nat.zero_div, ih, List.replicate_succ]
        rfl
    rw [hz, List.replicate_append_replicate, List.replicate_append_replicate]
    congr 1
    omega)
  rw [List.length_replicate] at h0
  rw [h0.field, Nat.zero_mod]

/-- The loop over empty notes. -/
theorem noteLoop_zeros (img : List UInt8) (ph : Phdr) (m : Mem) (n : Nat) (hlen : img.length < ISZ)
    (hz : At img ph.offset (List.replicate (12 * n) 0)) (hf : ph.filesz = 12 * n) (hn : 0 < n) :
    ∀ j k fuel c, k + j = n → j < fuel →
      noteLoop ph fuel (12 * k) (clean img (ph.offset + 12 * k) c m) =
        (.ok none, clean img (ph.offset + 12 * n) (c + 2 * j) m) := by
  have hb : ph.offset + 12 * n ≤ img.length := by
    have := hz.bound (fun h => by
      have := congrArg List.length h
      rw [List.length_replicate] at this
      simp only [List.length_nil] at this
      omega)
    rwa [List.length_replicate] at this
  unfold ISZ at hlen
  intro j
  induction j with
  | zero =>
    intro k fuel c hk hfu
    obtain rfl : k = n := by omega
    cases fuel with
    | zero => omega
    | succ fuel =>
      unfold noteLoop
      rw [if_neg (by omega)]
      rfl
  | succ j ih =>
    intro k fuel c hk hfu
    cases fuel with
    | zero => omega
    | succ fuel =>
      unfold noteLoop
      rw [if_pos (by omega)]
      dsimp only
      rw [LM.bind_ok (readExact_clean_ok (by omega))]
      rw [leField_window img (by omega), leField_window img (by omega), leField_window img (by omega)]
      have z1 := zeros_field hz (j := 12 * k) (n := 4) (by omega)
      have z2 := zeros_field hz (j := 12 * k + 4) (n := 4) (by omega)
      have z3 := zeros_field hz (j := 12 * k + 8) (n := 4) (by omega)
      rw [← Nat.add_assoc] at z2 z3
      rw [Nat.add_zero (ph.offset + 12 * k), z1, z2, z3]
      have hp : ∀ s, notePvh 0 0 s = (.ok false, s) := fun s => rfl
      rw [LM.bind_ok (hp _)]
      simp only [Bool.false_eq_true, ↓reduceIte]
      have hna : noteAdvance (12 * k) 0 0 = .ok (12 * (k + 1)) := by
        rw [noteAdvance_eq (by unfold ISZ; omega) (by omega) (by omega), if_neg (by omega)]
        rfl
      have hpa : (plainAdd ph.offset (12 * (k + 1)) : Res LoadError Nat) = .ok (ph.offset + 12 * (k + 1)) := by
        unfold plainAdd U64; rw [if_pos (by omega)]
      rw [hna, LM.bind_ok (LM.ofRes_apply _ _), hpa, LM.bind_ok (LM.ofRes_apply _ _),
        LM.bind_ok (seekStart_clean ..), ih (k + 1) fuel _ (by omega) (by omega)]
      rw [show c + 1 + 1 + 2 * j = c + 2 * (j + 1) by omega]

theorem parseNote_zeros (img : List UInt8) (ph : Phdr) (m : Mem) (n : Nat) (hlen : img.length < ISZ)
    (hz : At img ph.offset (List.replicate (12 * n) 0)) (hf : ph.filesz = 12 * n) (hn : 0 < n) (p c : Nat) :
    parseNote ph (clean img p c m) =
      (.ok .notPresent, clean img (ph.offset + 12 * n) (c + (1 + 2 * n)) m) := by
  unfold parseNote
  rw [LM.bind_ok (seekStart_clean ..)]
  have := noteLoop_zeros img ph m n hlen hz hf hn n 0 (ph.filesz + 1) (c + 1) (by omega) (by omega)
  rw [Nat.mul_zero, Nat.add_zero ph.offset] at this
  rw [LM.bind_ok this]
  rw [show c + 1 + 2 * n = c + (1 + 2 * n) by omega]
  rfl

theorem loadSegments_zeros (img : List UInt8) (m : Mem) (n : Nat) (hlen : img.length < ISZ) (hn : 0 < n)
    (ph : Phdr) (hz : At img ph.offset (List.replicate (12 * n) 0)) (hf : ph.filesz = 12 * n)
    (ht : ph.type = 4) : ∀ (k kend : Nat) (cap : PvhCap) (p c : Nat), ∃ p' cap',
      loadSegments none (List.replicate k ph) kend cap (clean img p c m) =
        (.ok (kend, cap'), clean img p' (c + k * (1 + 2 * n)) m) := by
  intro k
  induction k with
  | zero => intro kend cap p c; exact ⟨p, cap, by simp only [Nat.zero_mul, Nat.add_zero]; rfl⟩
  | succ k ih =>
    intro kend cap p c
    rw [List.replicate_succ]
    unfold loadSegments
    rw [if_pos (.inl (by rw [ht]; decide)), if_pos (by rw [ht]; rfl)]
    dsimp only
    rw [LM.bind_ok (parseNote_zeros img ph m n hlen hz hf hn p c)]
    obtain ⟨p', cap', he⟩ := ih kend .notPresent (ph.offset + 12 * n) (c + (1 + 2 * n))
    refine ⟨p', cap', ?_⟩
    rw [he, Nat.add_mul, Nat.one_mul]
    rw [show c + (1 + 2 * n) + k * (1 + 2 * n) = c + (k * (1 + 2 * n) + (1 + 2 * n)) by omega]

theorem readPhdrs_clock : ∀ (n : Nat) {s s' : LS} {phs : List Phdr},
    readPhdrs n s = (.ok phs, s') → s'.rd.clock = s.rd.clock + n := by
  intro n
  induction n with
  | zero => intro s s' phs h; cases h; rfl
  | succ n ih =>
    intro s s' phs h
    unfold readPhdrs at h
    rw [LM.bind_def] at h
    rcases hr : readExact 56 (LoadError.elf .readProgramHeader) s with ⟨res, s₁⟩
    rw [hr] at h
    cases res with
    | err e => cases h
    | panic => cases h
    | ok b =>
      obtain ⟨-, -, h3, -, -⟩ := readExact_ok_state hr
      simp only at h
      rw [LM.bind_def] at h
      rcases hq : readPhdrs n s₁ with ⟨res, s₂⟩
      rw [hq] at h
      cases res with
      | err e => cases h
      | panic => cases h
      | ok l =>
        have := ih hq
        cases h
        omega

/-! ## The image -/

/-- An executable with `p` note segments of `n` empty notes. -/
def heavyExe (p n : Nat) : Exe where
  cls := 2
  ident := [1, 0, 0, 0, 0, 0, 0, 0, 0, 0]
  etype := 2
  machine := 62
  version := 1
  entry := 0
  eflags := 0
  ehsize := 64
  shoff := 0
  shentsize := 0
  shnum := 0
  shstrndx := 0
  segs := List.replicate p ⟨.notes (List.replicate n ⟨0, [], []⟩), 4, 0, 0, 0, 4⟩

/-- The same notes shared by all segments. -/
def heavyElf (p n : Nat) : List UInt8 :=
  (heavyExe p n).header 64 ++ (heavyExe p n).segs.flatMap (fun g => g.header (64 + 56 * p)) ++
    List.replicate (12 * n) 0

theorem emptyNotes (n : Nat) : (List.replicate n (⟨0, [], []⟩ : Note)).flatMap Note.encode =
    List.replicate (12 * n) 0 := by
  induction n with
  | zero => rfl
  | succ n ih =>
    rw [List.replicate_succ, List.flatMap_cons, ih, Nat.mul_succ, Nat.add_comm,
      ← List.replicate_append_replicate]
    rfl

theorem emptyNotes_outcome (n : Nat) :
    notesOutcome (List.replicate n (⟨0, [], []⟩ : Note)) = .ok .notPresent := by
  induction n with
  | zero => rfl
  | succ n ih => rw [List.replicate_succ, notesOutcome, if_neg (by decide), ih]

theorem heavyExe_bytes {p n : Nat} {g : Seg} (hg : g ∈ (heavyExe p n).segs) :
    g.content.bytes = List.replicate (12 * n) 0 ∧ g.content.type = 4 := by
  have := (List.mem_replicate.1 hg).2
  subst this
  exact ⟨emptyNotes n, rfl⟩

theorem heavyElf_length (p n : Nat) : (heavyElf p n).length = 64 + 56 * p + 12 * n := by
  unfold heavyElf
  rw [List.length_append, List.length_append, exeHeader_length _ _ rfl,
    flatMap_const_length _ 56 _ (fun g _ => segHeader_length _ _), List.length_replicate]
  rw [show (heavyExe p n).segs.length = p from List.length_replicate]

theorem heavyExe_fits {p n : Nat} (hp : p < 0x10000) : (heavyExe p n).Fits := by
  refine ⟨rfl, show 0 < U64 by decide, by rwa [show (heavyExe p n).segs.length = p from List.length_replicate],
    fun g hg => ?_, fun g hg t bs h => ?_, fun g hg ns h => ?_⟩
  · have := (List.mem_replicate.1 hg).2
    subst this
    exact ⟨show 4 < 0x100000000 by decide, show 0 < U64 by decide, show 0 < U64 by decide⟩
  · have := (List.mem_replicate.1 hg).2
    subst this
    cases h
  · have := (List.mem_replicate.1 hg).2
    subst this
    cases h
    intro a ha
    have := (List.mem_replicate.1 ha).2
    subst this
    exact ⟨by decide, by decide, by decide⟩

theorem heavyElf_laidOut {p n : Nat} (hp : p < 0x10000) :
    LaidOut (heavyExe p n) (heavyElf p n) 64 (fun _ => 64 + 56 * p) := by
  have hh : ((heavyExe p n).header 64).length = 64 := exeHeader_length _ _ rfl
  have hl : (heavyExe p n).segs.length = p := List.length_replicate
  have hz : ((heavyExe p n).segs.flatMap fun g => g.header (64 + 56 * p)).length = 56 * p := by
    rw [flatMap_const_length _ 56 _ (fun g _ => segHeader_length _ _), hl]
  refine ⟨?_, Nat.le_refl _, fun i g hg => ?_, fun i g hg => ?_, by decide, fun i g hg => ?_⟩
  · exact at_of_drop (t := (heavyExe p n).segs.flatMap (fun g => g.header (64 + 56 * p)) ++
      List.replicate (12 * n) 0) (by rw [List.drop_zero, heavyElf, List.append_assoc])
  · have h1 := flatMap_at (fun g : Seg => g.header (64 + 56 * p)) (heavyExe p n).segs i g hg
    have hlt := (List.getElem?_eq_some_iff.1 hg).1
    rw [flatMap_const_length _ 56 _ (fun g _ => segHeader_length _ _), List.length_take,
      Nat.min_eq_left (Nat.le_of_lt hlt)] at h1
    unfold heavyElf
    refine at_append_left ?_ ?_
    · have := at_append_right (b := (heavyExe p n).header 64) h1
      rwa [hh] at this
    · rw [List.length_append, hh, hz, segHeader_length]
      rw [hl] at hlt
      omega
  · rw [(heavyExe_bytes (List.mem_of_getElem? hg)).1]
    have := at_append_right (b := (heavyExe p n).header 64 ++
      (heavyExe p n).segs.flatMap (fun g => g.header (64 + 56 * p))) (o := 0)
      (v := List.replicate (12 * n) 0) (t := List.replicate (12 * n) 0) (by
        unfold At; rw [List.drop_zero, List.take_of_length_le (Nat.le_refl _)])
    rw [List.length_append, hh, hz, Nat.add_zero] at this
    exact this
  · unfold U64; omega

theorem zipIdx_replicate_map {α β : Type} (a : α) (b : β) (f : α × Nat → β) (h : ∀ i, f (a, i) = b) (p : Nat) :
    ((List.replicate p a).zipIdx).map f = List.replicate p b := by
  apply List.ext_getElem
  · simp
  · intro i h1 h2
    simp [h]

/-- **C75.** The image with `p` program headers and `n` empty notes has `64 + 56 p + 12 n` bytes and is
accepted, after exactly `3 + p + p (1 + 2 n)` operations of a reader without faults. -/
theorem C75_quadratic (p n : Nat) (hp : p < 0x10000) (hn : 0 < n) (s : LS) (hff : FaultFree s)
    (hd : s.rd.data = heavyElf p n) (hlen : 64 + 56 * p + 12 * n < ISZ) :
    (∃ r, (elfLoad none none s).1 = .ok r) ∧
    (elfLoad none none s).2.rd.clock = s.rd.clock + 3 + p + p * (1 + 2 * n) := by
  have hlen' : (heavyElf p n).length < ISZ := by rw [heavyElf_length]; exact hlen
  have hf := heavyExe_fits (n := n) hp
  have hl := heavyElf_laidOut (n := n) hp
  obtain ⟨g1, g2, g3, g4, g5, g6, g7⟩ := laidOut_header hf hl
  rw [show (heavyExe p n).segs.length = p from List.length_replicate] at g7
  let ph : Phdr := ⟨4, 64 + 56 * p, 0, 12 * n, 0⟩
  have hphs : elfPhdrs (heavyElf p n) = List.replicate p ph := by
    rw [laidOut_phdrs hf hl hlen']
    refine zipIdx_replicate_map _ _ _ (fun i => ?_) p
    show segPhdr _ _ = ph
    unfold segPhdr
    have : (Content.notes (List.replicate n (⟨0, [], []⟩ : Note))).bytes.length = 12 * n := by
      show ((List.replicate n (⟨0, [], []⟩ : Note)).flatMap Note.encode).length = _
      rw [emptyNotes, List.length_replicate]
    simp only [this]
    rfl
  have hz : At (heavyElf p n) ph.offset (List.replicate (12 * n) 0) := by
    have := at_append_right (b := (heavyExe p n).header 64 ++
      (heavyExe p n).segs.flatMap (fun g => g.header (64 + 56 * p))) (o := 0)
      (v := List.replicate (12 * n) 0) (t := List.replicate (12 * n) 0) (by
        unfold At; rw [List.drop_zero, List.take_of_length_le (Nat.le_refl _)])
    rw [List.length_append, exeHeader_length _ _ rfl,
      flatMap_const_length _ 56 _ (fun g _ => segHeader_length _ _),
      show (heavyExe p n).segs.length = p from List.length_replicate, Nat.add_zero] at this
    exact this
  have hloads : ∀ m, (heavyExe p n).Loads none none m := by
    intro m
    refine ⟨fun h hh => (nomatch hh), show 0 + 0 < U64 by decide, fun g hg a bs hpc => ?_, fun _ ns hns => ?_⟩
    · have := (List.mem_replicate.1 hg).2
      subst this
      cases hpc
    · obtain ⟨i, g, hi, hc⟩ := mem_noteLists.1 hns
      have := (List.mem_replicate.1 (List.mem_of_getElem? hi)).2
      subst this
      cases hc
      exact ⟨.notPresent, emptyNotes_outcome n⟩
  have hs := faultFree_eq_clean hff
  rw [hd] at hs
  rw [hs]
  generalize s.rd.pos = q
  have hcl : (clean (heavyElf p n) q s.rd.clock s.mem).rd.clock = s.rd.clock := rfl
  rw [hcl]
  generalize s.rd.clock = c
  generalize s.mem = m
  have hnone := (laidOut_obstacles hf hl hlen' none none m).2 (hloads m)
  have hval : validateHeader ((heavyElf p n).take 64) = .ok () := by
    rcases validate_cases (heavyElf p n) none none g1 with ⟨-, hv⟩ | ⟨e, -, ho⟩
    · exact hv
    · have hh : FirstObstacle (elfHeaderObstacles (heavyElf p n) none none) none :=
        firstObstacle_none_iff.2 fun o hh =>
          firstObstacle_none_iff.1 hnone o (List.mem_append_left _ hh)
      exact nomatch firstObstacle_unique hh ho
  generalize heavyElf p n = img at *
  unfold elfLoad
  rw [LM.bind_ok (seekStart_clean ..), LM.bind_ok (readExact_clean_ok (by omega))]
  simp only [List.drop_zero, Nat.zero_add]
  have f1 : ehEntry (img.take 64) = elfEntry img := leField_take img (by omega)
  have f2 : ehPhoff (img.take 64) = elfPhoff img := leField_take img (by omega)
  have f3 : ehPhnum (img.take 64) = elfPhnum img := leField_take img (by omega)
  rw [hval, f1, f2, f3, LM.bind_ok (LM.ofRes_apply _ _)]
  have hce : ∀ s, checkEntry none (elfEntry img) s = (.ok (), s) := fun s => rfl
  have hkl : ∀ s, elfKernelLoad none (elfEntry img) s = (.ok (elfEntry img), s) := fun s => rfl
  rw [LM.bind_ok (hce _), LM.bind_ok (hkl _), LM.bind_ok (seekStart_clean ..)]
  rcases readPhdrs_clean img m (elfPhnum img) (elfPhoff img) (c + 1 + 1 + 1) with
    ⟨hc, p', c', he⟩ | ⟨hc, p', c', he⟩
  · have hclk := readPhdrs_clock _ he
    rw [LM.bind_ok he]
    have hph : (List.range (elfPhnum img)).map (fun i => phdrOff img (elfPhoff img + 56 * i)) =
        elfPhdrs img := rfl
    rw [hph, hphs]
    obtain ⟨p'', cap, hls⟩ := loadSegments_zeros img m n hlen' hn ph hz rfl rfl p 0 .ignored p' c'
    rw [LM.bind_ok hls]
    refine ⟨⟨_, rfl⟩, ?_⟩
    show c' + p * (1 + 2 * n) = _
    have : c' = c + 1 + 1 + 1 + elfPhnum img := hclk
    rw [g7] at this
    omega
  · exfalso
    exact firstObstacle_none_iff.1 hnone (.elf .readProgramHeader, ¬ PhdrsComplete img)
      (List.mem_append_left _ (by simp [elfHeaderObstacles])) hc

/-- **C75 (refuted: work is not proportional to the size of the image).** With 65535 program headers and
327675 notes, an image of 7.6 MB takes more than 42 thousand million operations, more than 5000 for each
of its bytes. -/
theorem C75_linear_refuted : ∃ img : List UInt8, img.length = 7602124 ∧
    ∀ s : LS, s.rd.data = img → FaultFree s → (∃ r, (elfLoad none none s).1 = .ok r) ∧
      5000 * img.length < (elfLoad none none s).2.rd.clock - s.rd.clock := by
  have hl := heavyElf_length 65535 327675
  refine ⟨heavyElf 65535 327675, hl, fun s hd hff => ?_⟩
  obtain ⟨h1, h2⟩ := C75_quadratic 65535 327675 (by decide) (by decide) s hff hd (by decide)
  refine ⟨h1, ?_⟩
  rw [h2, hl]
  omega

/-- A small one: 2 headers, 3 notes, 19 operations. -/
example : (heavyElf 2 3).length = 212 ∧
    (elfLoad none none ⟨.cursor (heavyElf 2 3), elfMem⟩).2.rd.clock = 19 := by decide +kernel

example := C75_quadratic 2 3 (by decide) (by decide) ⟨⟨heavyElf 2 3, 0, fun _ => .ok, 0⟩, elfMem⟩
  (fun _ => rfl) rfl (by decide)

end LinuxLoader
