import Verif.Lemmas.Images

/-! # Lemmas about the PE loader and device tree blobs -/

namespace LinuxLoader
open Spec

theorem peMagic_iff (arch : PeArch) (img : List UInt8) :
    peMagic (img.take 64) = arch.magic ↔ PeMagicOk arch img := by
  have h : peMagic (img.take 64) = leField img 56 4 := leField_take img (by omega)
  rw [h]
  unfold leField PeMagicOk
  cases arch
  · exact leNat_eq_iff (n := 3) (v := 0x644d5241) (by rw [List.length_take]; omega) (by decide)
      (by decide)
  · exact leNat_eq_iff (n := 3) (v := 0x05435352) (by rw [List.length_take]; omega) (by decide)
      (by decide)

theorem peTextOffset_eq (arch : PeArch) (img : List UInt8) :
    peTextOffset arch (img.take 64) = peOffset arch img := by
  have h1 : peTextField (img.take 64) = leField img 8 8 := leField_take img (by omega)
  have h2 : peImageSize (img.take 64) = leField img 16 8 := leField_take img (by omega)
  unfold peTextOffset peOffset
  rw [h1, h2]
  cases arch <;> simp

/-- All outcomes of `PE::load` with a faultless reader. -/
theorem peLoad_clean (arch : PeArch) (img : List UInt8) (koff highmem : Option GuestAddr) (p c : Nat)
    (m : Mem) :
    (FirstObstacle (peObstacles arch img koff m) none ∧ ∃ p' c',
      peLoad arch koff highmem (clean img p c m) =
        (.ok ⟨peAddress arch img koff, peAddress arch img koff + img.length, none, .ignored⟩,
          clean img p' c' (m.store (peAddress arch img koff) img))) ∨
    ∃ e s', peLoad arch koff highmem (clean img p c m) = (.err e, s') ∧
      FirstObstacle (peObstacles arch img koff m) (some e) ∧
      (e ≠ .pe .readKernelImage → e ≠ .memoryOverflow → s'.mem = m) := by
  unfold peLoad peObstacles
  rw [LM.bind_ok (seekEnd_clean ..), LM.bind_ok (seekStart_clean ..)]
  by_cases h0 : img.length < 64
  · right
    exact ⟨_, _, LM.bind_err (readExact_clean_err (by omega) (by omega)), .here h0, fun _ _ => rfl⟩
  · rw [LM.bind_ok (readExact_clean_ok (by omega))]
    simp only [List.drop_zero, Nat.zero_add]
    rw [peTextOffset_eq]
    by_cases h1 : PeMagicOk arch img
    · rw [LM.bind_ok (a := ()) (s' := clean img 64 (c + 1 + 1 + 1) m) (by
        rw [(peMagic_iff arch img).2 h1]; simp)]
      by_cases h2 : ∃ k, koff = some k ∧ k.toNat % 0x200000 ≠ 0
      · right
        obtain ⟨k, rfl, hk⟩ := h2
        refine ⟨.pe .invalidBaseAddrAlignment, clean img 64 (c + 1 + 1 + 1) m, LM.bind_err ?_,
          .later h0 (.later (fun h => h h1) (.here ⟨k, rfl, hk⟩)), fun _ _ => rfl⟩
        unfold peCheckAlign
        dsimp only
        rw [show (k.toNat % 0x200000 == 0) = false by simpa using hk]
        rfl
      · rw [LM.bind_ok (a := ()) (s' := clean img 64 (c + 1 + 1 + 1) m) (by
          unfold peCheckAlign
          cases koff with
          | none => rfl
          | some k =>
            dsimp only
            have : k.toNat % 0x200000 = 0 := Classical.byContradiction fun hn => h2 ⟨k, rfl, hn⟩
            rw [this]
            rfl)]
        have hbase : peBase koff = koffBase koff := by cases koff <;> rfl
        rw [hbase]
        have ha : koffBase koff + peOffset arch img = peAddress arch img koff := rfl
        generalize peAddress arch img koff = a at ha ⊢
        by_cases h3 : a < U64
        · rw [LM.bind_ok (a := a) (s' := clean img 64 (c + 1 + 1 + 1) m) (by
            unfold checkedAdd; rw [ha, if_pos h3]; rfl)]
          rw [LM.bind_ok (seekStart_clean ..)]
          rcases readIntoMem_clean img 0 (c + 1 + 1 + 1 + 1) m a img.length
            (.pe .readKernelImage : LoadError) (by omega) with ⟨-, h4, he⟩ | ⟨h4, s', he⟩
          · rw [LM.bind_ok he]
            simp only [List.drop_zero, Nat.zero_add, List.take_length]
            by_cases h5 : a + img.length < U64
            · left
              refine ⟨.later h0 (.later (fun h => h h1) (.later h2 (.later (by omega)
                (.later (fun h => h h4) (.later (by omega) .none))))), img.length,
                c + 1 + 1 + 1 + 1 + 1, ?_⟩
              rw [LM.bind_ok (a := a + img.length)
                (s' := clean img img.length (c + 1 + 1 + 1 + 1 + 1) (m.store a img)) (by
                unfold checkedAdd; rw [if_pos h5]; rfl)]
              rfl
            · right
              refine ⟨.memoryOverflow, clean img img.length (c + 1 + 1 + 1 + 1 + 1) (m.store a img),
                LM.bind_err ?_, .later h0 (.later (fun h => h h1) (.later h2 (.later (by omega)
                (.later (fun h => h h4) (.here (by omega)))))), fun _ h => absurd rfl h⟩
              unfold checkedAdd; rw [if_neg h5]; rfl
          · right
            refine ⟨.pe .readKernelImage, s', LM.bind_err he, .later h0 (.later (fun h => h h1)
              (.later h2 (.later (by omega) (.here ?_)))), fun h => absurd rfl h⟩
            rcases h4 with h4 | h4
            · omega
            · exact h4
        · right
          refine ⟨.pe .invalidImage, clean img 64 (c + 1 + 1 + 1) m, LM.bind_err ?_, .later h0
            (.later (fun h => h h1) (.later h2 (.here (by omega)))), fun _ _ => rfl⟩
          unfold checkedAdd; rw [ha, if_neg h3]; rfl
    · right
      refine ⟨.pe .invalidImageMagicNumber, clean img 64 (c + 1 + 1 + 1) m, LM.bind_err ?_,
        .later h0 (.here h1), fun _ _ => rfl⟩
      rw [show (peMagic (img.take 64) == arch.magic) = false by
        simpa using fun h => h1 ((peMagic_iff arch img).1 h)]
      rfl

theorem good_peLoad (arch : PeArch) (koff highmem : Option GuestAddr) :
    Good (peLoad arch koff highmem) := by
  refine .bind (.seekEnd _) fun _ => .bind (.seekStart _ _) fun _ => .bind (.readExact _ _) fun _ =>
    .bind (.require _ _) fun _ => .bind ?_ fun _ => .bind (.okOr _ _) fun _ =>
    .bind (.seekStart _ _) fun _ => .bind (.readIntoMem _ _ _) fun _ => .bind (.okOr _ _) fun _ => .pure _
  cases koff with
  | none => exact .pure _
  | some q => exact .require _ _

theorem peLoad_ok {arch : PeArch} {koff highmem : Option GuestAddr} {s s' : LS} {r : LoadResult}
    (h : peLoad arch koff highmem s = (.ok r, s')) :
    FirstObstacle (peObstacles arch s.rd.data koff s.mem) none ∧
    r = ⟨peAddress arch s.rd.data koff, peAddress arch s.rd.data koff + s.rd.data.length, none,
      .ignored⟩ ∧
    s'.mem = s.mem.store (peAddress arch s.rd.data koff) s.rd.data := by
  obtain ⟨t', ht, hs, -⟩ := (good_peLoad arch koff highmem).ok s
    (clean s.rd.data s.rd.pos 0 s.mem) r s' ⟨rfl, rfl, rfl⟩ (clean_faultless _ _ _ _) h
  rcases peLoad_clean arch s.rd.data koff highmem s.rd.pos 0 s.mem with
    ⟨ho, p', c', he⟩ | ⟨e, s'', he, -⟩
  · rw [he] at ht
    cases ht
    exact ⟨ho, rfl, hs.2.2⟩
  · rw [he] at ht; cases ht

theorem peLoad_no_panic (arch : PeArch) (koff highmem : Option GuestAddr) (s : LS) :
    (peLoad arch koff highmem s).1 ≠ .panic := by
  intro hp
  rcases hx : peLoad arch koff highmem s with ⟨r, s'⟩
  rw [hx] at hp
  simp only at hp
  subst hp
  obtain ⟨t', ht⟩ := (good_peLoad arch koff highmem).panic s
    (clean s.rd.data s.rd.pos 0 s.mem) s' ⟨rfl, rfl, rfl⟩ (clean_faultless _ _ _ _) hx
  rcases peLoad_clean arch s.rd.data koff highmem s.rd.pos 0 s.mem with
    ⟨ho, p', c', he⟩ | ⟨e, s'', he, -⟩ <;> rw [he] at ht <;> cases ht

/-! ## Device tree blobs -/

theorem loadDtb_clean (a : GuestAddr) (img : List UInt8) (p c : Nat) (m : Mem) :
    (img.length ≤ 0x200000 ∧ Accessible m a.toNat img.length ∧ ∃ p' c',
      loadDtb a (clean img p c m) = (.ok (), clean img p' c' (m.store a.toNat img))) ∨
    (0x200000 < img.length ∧ ∃ s', loadDtb a (clean img p c m) = (.err (.pe .dtbTooBig), s') ∧
      s'.mem = m) ∨
    (img.length ≤ 0x200000 ∧ ¬ Accessible m a.toNat img.length ∧ ∃ s',
      loadDtb a (clean img p c m) = (.err (.pe .readDtbImage), s')) := by
  unfold loadDtb
  rw [LM.bind_ok (seekEnd_clean ..)]
  by_cases h1 : img.length ≤ 0x200000
  · rw [LM.bind_ok (a := ()) (s' := clean img img.length (c + 1) m) (by
      rw [decide_eq_true h1]; rfl), LM.bind_ok (seekStart_clean ..)]
    rcases readIntoMem_clean' img 0 (c + 1 + 1) m a.toNat img.length
      (.pe .readDtbImage : LoadError) (by omega) with ⟨h2, he⟩ | ⟨h2, s', he⟩
    · left
      refine ⟨h1, h2, 0 + img.length, c + 1 + 1 + 1, ?_⟩
      rw [he]
      simp
    · exact .inr (.inr ⟨h1, h2, s', he⟩)
  · right; left
    refine ⟨by omega, clean img img.length (c + 1) m, LM.bind_err ?_, rfl⟩
    rw [decide_eq_false h1]
    rfl

theorem good_loadDtb (a : GuestAddr) : Good (loadDtb a) :=
  .bind (.seekEnd _) fun _ => .bind (.require _ _) fun _ => .bind (.seekStart _ _) fun _ =>
    .readIntoMem _ _ _

/-! ## Frames -/

/-- A run that starts with a seek to the end does not depend on the position. -/
theorem seekEnd_first {ε α : Type} (e : ε) (f : Nat → LM LS ε α) (d : List UInt8)
    (p q : Nat) (sch : Nat → IoEvent) (c : Nat) (m : Mem) :
    ((seekEnd e >>= f) ⟨⟨d, p, sch, c⟩, m⟩).1 = ((seekEnd e >>= f) ⟨⟨d, q, sch, c⟩, m⟩).1 ∧
    ((seekEnd e >>= f) ⟨⟨d, p, sch, c⟩, m⟩).2.mem =
      ((seekEnd e >>= f) ⟨⟨d, q, sch, c⟩, m⟩).2.mem := by
  by_cases h : ioFails ⟨⟨d, p, sch, c⟩, m⟩ = true
  · have h' : ioFails ⟨⟨d, q, sch, c⟩, m⟩ = true := h
    have e1 : seekEnd e ⟨⟨d, p, sch, c⟩, m⟩ = (.err e, ⟨⟨d, p, sch, c + 1⟩, m⟩) := by
      unfold seekEnd; rw [if_pos h]; rfl
    have e2 : seekEnd e ⟨⟨d, q, sch, c⟩, m⟩ = (.err e, ⟨⟨d, q, sch, c + 1⟩, m⟩) := by
      unfold seekEnd; rw [if_pos h']; rfl
    rw [LM.bind_err e1, LM.bind_err e2]
    exact ⟨rfl, rfl⟩
  · have h' : ¬ ioFails ⟨⟨d, q, sch, c⟩, m⟩ = true := h
    have e1 : seekEnd e ⟨⟨d, p, sch, c⟩, m⟩ = (.ok d.length, ⟨⟨d, d.length, sch, c + 1⟩, m⟩) := by
      unfold seekEnd; rw [if_neg h]; rfl
    have e2 : seekEnd e ⟨⟨d, q, sch, c⟩, m⟩ = (.ok d.length, ⟨⟨d, d.length, sch, c + 1⟩, m⟩) := by
      unfold seekEnd; rw [if_neg h']; rfl
    rw [LM.bind_ok e1, LM.bind_ok e2]
    exact ⟨rfl, rfl⟩

theorem seekEnd_eq_ok {ε : Type} {e : ε} {s s' : LS} {n : Nat}
    (h : seekEnd e s = (.ok n, s')) :
    n = s.rd.data.length ∧ s' = { s with rd := s.rd.tick s.rd.data.length } := by
  unfold seekEnd at h
  split at h
  · cases h
  · cases h; exact ⟨rfl, rfl⟩

theorem readExact_eq_ok {ε : Type} {n : Nat} {e : ε} {s s' : LS} {b : List UInt8}
    (h : readExact n e s = (.ok b, s')) :
    b = s.rd.rest.take n ∧ s'.rd.data = s.rd.data ∧ s'.rd.sched = s.rd.sched := by
  unfold readExact at h
  split at h
  · cases h
  · cases h; exact ⟨rfl, rfl, rfl⟩

theorem peLoad_from (arch : PeArch) (koff highmem : Option GuestAddr) (s : LS) :
    FromPieces (fun x => ¬ NoScatter s ∧ InRange (peAddress arch s.rd.data koff) s.rd.data.length x)
      [(peAddress arch s.rd.data koff, s.rd.data)] s.mem
      (peLoad arch koff highmem s).2.mem := by
  unfold peLoad
  refine bind_from (Quiet.rel (.seekEnd _) _ _ _) fun size s₁ h1 => ?_
  obtain ⟨hsz, e1⟩ := seekEnd_eq_ok h1
  refine bind_from (Quiet.rel (.seekStart _ _) _ _ _) fun u s₂ h2 => ?_
  have e2 := seekStart_eq_ok h2
  refine bind_from (Quiet.rel (.readExact _ _) _ _ _) fun h s₃ h3 => ?_
  obtain ⟨hh, d3, c3⟩ := readExact_eq_ok h3
  have hd2 : s₂.rd.data = s.rd.data := by rw [e2, e1]; rfl
  have hh' : h = s.rd.data.take 64 := by
    rw [hh, e2, e1]; rfl
  have hd3 : s₃.rd.data = s.rd.data := d3.trans hd2
  refine bind_from (Quiet.rel (.require _ _) _ _ _) fun u s₄ h4 => ?_
  obtain ⟨-, rfl⟩ := LM.require_eq_ok.1 h4
  refine bind_from (Quiet.rel ?_ _ _ _) fun u s₅ h5 => ?_
  · cases koff with
    | none => exact Quiet.pure _
    | some h => exact Quiet.require _ _
  have h5' : s₅ = s₄ := by
    unfold peCheckAlign at h5
    cases koff with
    | none => cases h5; rfl
    | some k => exact (LM.require_eq_ok.1 h5).2.symm ▸ rfl
  subst h5'
  refine bind_from (Quiet.rel (.okOr _ _) _ _ _) fun a s₆ h6 => ?_
  obtain ⟨ha, rfl⟩ := LM.okOr_eq_ok.1 h6
  have haddr : a = peAddress arch s.rd.data koff := by
    rw [hh', peTextOffset_eq] at ha
    unfold checkedAdd at ha
    split at ha
    · rw [Option.some.injEq] at ha
      rw [← ha]
      unfold peAddress koffBase peBase
      cases koff <;> rfl
    · cases ha
  subst haddr
  refine bind_from (Quiet.rel (.seekStart _ _) _ _ _) fun u s₇ h7 => ?_
  have e7 := seekStart_eq_ok h7
  refine bind_from ?_ fun _ _ _ => Quiet.rel (.bind (.okOr _ _) fun _ => .pure _) _ _ _
  have hr : s₇.rd.rest = s.rd.data := by
    rw [e7, ← hd3]
    show List.drop 0 _ = _
    rw [List.drop_zero]
    rfl
  have hn : NoScatter s₇ = NoScatter s := by
    have hs7 : s₇.rd.sched = s.rd.sched := by
      rw [e7]; exact c3.trans (by rw [e2, e1]; rfl)
    unfold NoScatter
    rw [hs7]
  have := readIntoMem_from (peAddress arch s.rd.data koff) size (.pe .readKernelImage : LoadError) s₇
  rw [hr, hn, hsz] at this
  rw [hsz]
  exact this.untake

theorem loadDtb_from (a : GuestAddr) (s : LS) :
    FromPieces (fun x => ¬ NoScatter s ∧ InRange a.toNat s.rd.data.length x)
      [(a.toNat, s.rd.data)] s.mem (loadDtb a s).2.mem := by
  unfold loadDtb
  refine bind_from (Quiet.rel (.seekEnd _) _ _ _) fun size s₁ h1 => ?_
  obtain ⟨hsz, e1⟩ := seekEnd_eq_ok h1
  refine bind_from (Quiet.rel (.require _ _) _ _ _) fun u s₄ h4 => ?_
  obtain ⟨-, rfl⟩ := LM.require_eq_ok.1 h4
  refine bind_from (Quiet.rel (.seekStart _ _) _ _ _) fun u s₇ h7 => ?_
  have e7 := seekStart_eq_ok h7
  have hr : s₇.rd.rest = s.rd.data := by
    rw [e7, e1]; rfl
  have hn : NoScatter s₇ = NoScatter s := by
    unfold NoScatter
    rw [e7, e1]; rfl
  have := readIntoMem_from a.toNat size (.pe .readDtbImage : LoadError) s₇
  rw [hr, hn, hsz] at this
  rw [hsz]
  exact this.untake

/-- What `BzImage::load` can change once it has the header buffer. -/
theorem bzRest_from (koff highmem : Option GuestAddr) (n : Nat) (h : List UInt8) (s : LS) :
    (bzRest koff highmem n h s).2.mem = s.mem ∨
    (shMagic h = 0x53726448 ∧
      FromPieces (fun x => ¬ NoScatter s ∧ InRange (bzMemOffset koff (shCode32 h))
          (n - ((if shSetupSects h = 0 then 4 else shSetupSects h) + 1) * 512) x)
        [(bzMemOffset koff (shCode32 h),
        s.rd.data.drop (((if shSetupSects h = 0 then 4 else shSetupSects h) + 1) * 512))] s.mem
        (bzRest koff highmem n h s).2.mem) := by
  by_cases hm : shMagic h = 0x53726448
  · refine .inr ⟨hm, ?_⟩
    unfold bzRest
    refine bind_from (Quiet.rel (.require _ _) _ _ _) fun u s₁ h1 => ?_
    obtain ⟨-, rfl⟩ := LM.require_eq_ok.1 h1
    refine bind_from (Quiet.rel (.require _ _) _ _ _) fun u s₁ h1 => ?_
    obtain ⟨-, rfl⟩ := LM.require_eq_ok.1 h1
    refine bind_from (Quiet.rel (.okOr _ _) _ _ _) fun setup s₁ h1 => ?_
    obtain ⟨hsetup, rfl⟩ := LM.okOr_eq_ok.1 h1
    refine bind_from (Quiet.rel (.okOr _ _) _ _ _) fun k s₀ h1 => ?_
    obtain ⟨hk, rfl⟩ := LM.okOr_eq_ok.1 h1
    refine bind_from (Quiet.rel ?_ _ _ _) fun u s₁ h1 => ?_
    · cases highmem with
      | none => exact Quiet.pure _
      | some h => exact Quiet.require _ _
    have e1 : s₁ = s₀ := by
      unfold bzCheckHighmem at h1
      cases highmem with
      | none => cases h1; rfl
      | some k => exact (LM.require_eq_ok.1 h1).2.symm ▸ rfl
    subst e1
    refine bind_from (Quiet.rel (.seekStart _ _) _ _ _) fun u s₇ h7 => ?_
    have e7 := seekStart_eq_ok h7
    refine bind_from ?_ fun _ _ _ => Quiet.rel (.bind (.okOr _ _) fun _ => .pure _) _ _ _
    rw [bzSetupSize_eq (shSetupSects h) (leField_lt h 0 1), Option.some.injEq] at hsetup
    have hr : s₇.rd.rest =
        s₁.rd.data.drop (((if shSetupSects h = 0 then 4 else shSetupSects h) + 1) * 512) := by
      rw [e7, ← hsetup]; rfl
    have hn : NoScatter s₇ = NoScatter s₁ := by
      unfold NoScatter
      rw [e7]; rfl
    have := readIntoMem_from (bzMemOffset koff (shCode32 h)) k
      (.bz .readBzImageCompressedKernel : LoadError) s₇
    rw [hr, hn] at this
    refine this.untake.mono (fun _ h => h) fun x hx => ?_
    have hk' : n - setup = k := by
      unfold checkedSub at hk
      split at hk
      · cases hk; rfl
      · cases hk
    rw [hsetup, hk']
    exact hx
  · left
    unfold bzRest
    rw [LM.bind_err (e := .bz .invalidBzImage) (s' := s)]
    rw [show (shMagic h == 0x53726448) = false by simpa using hm]
    rfl

/-- If the magic number has been read, so has the number of setup sectors. -/
theorem bzBuf_sects {img : List UInt8} {k : Nat} (h : shMagic (bzBuf img k) = 0x53726448) :
    shSetupSects (bzBuf img k) = bzSetupSects img := by
  have hk : 1 ≤ k := by
    refine Nat.lt_of_not_le fun hk => ?_
    have : k = 0 := by omega
    subst this
    have h0 : shMagic (bzBuf img 0) = 0 := by
      unfold shMagic bzBuf
      rw [leField_padded]
      rfl
    rw [h0] at h
    cases h
  exact bzBuf_field img k 0 1 (by omega) (by omega)

/-! ## Short reads of the bzImage header -/

theorem leNat_take_le (l : List UInt8) (j : Nat) : leNat (l.take j) ≤ leNat l := by
  induction l generalizing j with
  | nil => simp
  | cons b l ih =>
    cases j with
    | zero => simp [leNat]
    | succ j =>
      simp only [List.take_succ_cons, leNat]
      have := ih j
      omega

/-- A truncated field is not larger than the field. -/
theorem leField_take_le (l : List UInt8) (k o n : Nat) : leField (l.take k) o n ≤ leField l o n := by
  unfold leField
  rw [List.drop_take, List.take_take, Nat.min_comm, ← List.take_take]
  exact leNat_take_le _ _

theorem bzBuf_field_le (img : List UInt8) (k o n : Nat) (h' : o + n ≤ 123) :
    leField (bzBuf img k) o n ≤ leField img (0x1f1 + o) n := by
  unfold bzBuf
  rw [leField_padded]
  refine Nat.le_trans (leField_take_le _ _ _ _) ?_
  unfold bzHeader
  rw [leField_window _ h']
  exact Nat.le_refl _

/-- If the magic number has been read it is in the image. -/
theorem bzBuf_magic {img : List UInt8} {k : Nat} (h : shMagic (bzBuf img k) = 0x53726448) :
    BzMagicOk img := by
  have hk : 0x15 ≤ k := by
    refine Nat.le_of_not_lt fun hk => ?_
    unfold shMagic bzBuf at h
    rw [leField_padded] at h
    unfold leField at h
    have h1 := leNat_lt ((((bzHeader img).take k).drop 0x11).take 4)
    have h2 : ((((bzHeader img).take k).drop 0x11).take 4).length ≤ 3 := by
      simp only [List.length_take, List.length_drop]; omega
    have h3 := Nat.pow_le_pow_right (show 0 < 256 by decide) h2
    omega
  rw [← bzMagic_iff, ← bzBuf_field img k 0x11 4 (by omega) (by omega)]
  exact h

theorem bzBuf_loadflags {img : List UInt8} {k : Nat} (h : shLoadflags (bzBuf img k) % 2 ≠ 0) :
    shLoadflags (bzBuf img k) = bzLoadflags img := by
  have hk : 0x21 ≤ k := by
    refine Nat.le_of_not_lt fun hk => ?_
    unfold shLoadflags bzBuf at h
    rw [leField_padded] at h
    unfold leField at h
    rw [List.drop_eq_nil_of_le (by rw [List.length_take]; omega)] at h
    exact h rfl
  exact bzBuf_field img k 0x20 1 (by omega) (by omega)

/-- Everything a successful load means for an arbitrary reader. -/
theorem bzLoad_ok_any {koff highmem : Option GuestAddr} {s s' : LS} {r : LoadResult}
    (h : bzLoad koff highmem s = (.ok r, s')) :
    ∃ k, (NoShortReads s → k = 123) ∧
    FirstObstacle (bzBufObstacles s.rd.data (bzBuf s.rd.data k) koff highmem s.mem) none ∧
    r = ⟨bzMemOffset koff (shCode32 (bzBuf s.rd.data k)),
      bzMemOffset koff (shCode32 (bzBuf s.rd.data k)) + (bzKernel s.rd.data).length,
      some (setCode32 (bzBuf s.rd.data k) (bzMemOffset koff (shCode32 (bzBuf s.rd.data k)))),
      .ignored⟩ ∧
    s'.mem = s.mem.store (bzMemOffset koff (shCode32 (bzBuf s.rd.data k))) (bzKernel s.rd.data) := by
  rcases bzLoad_head koff highmem s with ⟨e, s'', he, -⟩ | ⟨k, s₁, hk, hd, hm, hs, he⟩
  · rw [he] at h; cases h
  · rw [he] at h
    obtain ⟨t', ht, hsim, -⟩ := (good_bzRest koff highmem _ _).ok s₁
      (clean s.rd.data s₁.rd.pos 0 s.mem) r s' ⟨hd, rfl, hm⟩ (clean_faultless _ _ _ _) h
    rcases bzRest_clean s.rd.data (bzBuf s.rd.data k) koff highmem s₁.rd.pos 0 s.mem with
      ⟨ho, p'', c'', hr⟩ | ⟨e, s'', hr, ho', -⟩
    · have h1 : ¬ (shMagic (bzBuf s.rd.data k) ≠ 0x53726448 ∨ shVersion (bzBuf s.rd.data k) < 0x200 ∨
          shLoadflags (bzBuf s.rd.data k) % 2 = 0) := firstObstacle_none_iff.1 ho _ (.head _)
      have hmg : shMagic (bzBuf s.rd.data k) = 0x53726448 :=
        Classical.byContradiction fun hn => h1 (.inl hn)
      have hkl : (bzKernel s.rd.data).length = s.rd.data.length -
            ((if bzSetupSects s.rd.data = 0 then 4 else bzSetupSects s.rd.data) + 1) * 512 := by
        unfold bzKernel bzSetupBytes; rw [List.length_drop]
      rw [hr, bzBuf_sects hmg, ← hkl] at ht
      cases ht
      exact ⟨k, hk, ho, rfl, hsim.2.2⟩
    · rw [hr] at ht; cases ht

end LinuxLoader
