import Verif.Spec.Images
import Verif.Lemmas.Elf

/-! # Lemmas about the bzImage and PE loaders -/

namespace LinuxLoader
open Spec

/-! ## Little-endian numbers -/

theorem leNat_zeros (l : List UInt8) (k : Nat) : leNat (l ++ List.replicate k 0) = leNat l := by
  induction l with
  | nil =>
    induction k with
    | zero => rfl
    | succ k ih =>
      simp only [List.nil_append] at ih ⊢
      simp [List.replicate_succ, leNat, ih]
  | cons b l ih => simp only [List.cons_append, leNat, ih]

/-- Zero padding does not change integer fields. -/
theorem leField_padded (l : List UInt8) (k o n : Nat) :
    leField (l ++ List.replicate k 0) o n = leField l o n := by
  unfold leField
  rw [List.drop_append, List.take_append, List.drop_replicate, List.take_replicate]
  exact leNat_zeros _ _

theorem leBytes_leNat (l : List UInt8) : leBytes l.length (leNat l) = l := by
  induction l with
  | nil => rfl
  | cons b l ih =>
    have hb : b.toNat < 256 := b.toNat_lt
    simp only [List.length_cons, leBytes, leNat]
    rw [show (b.toNat + 256 * leNat l) / 256 = leNat l by omega, ih]
    congr 1
    apply UInt8.toNat_inj.1
    simp

/-- A number of exactly `n` significant bytes has only one representation by at most `n` bytes. -/
theorem leNat_eq_iff {l : List UInt8} {n v : Nat} (hl : l.length ≤ n + 1) (h1 : 256 ^ n ≤ v)
    (h2 : v < 256 ^ (n + 1)) : leNat l = v ↔ l = leBytes (n + 1) v := by
  constructor
  · intro h
    have hlen : l.length = n + 1 := by
      refine Nat.le_antisymm hl (Nat.lt_of_not_le fun hle => ?_)
      have h3 := leNat_lt l
      have h4 : 256 ^ l.length ≤ 256 ^ n := Nat.pow_le_pow_right (by decide) hle
      omega
    rw [← h, ← hlen, leBytes_leNat]
  · rintro rfl
    rw [leNat_leBytes, Nat.mod_eq_of_lt h2]

/-! ## Reading into memory, empty reads included -/

theorem readIntoMem_clean' {ε : Type} (img : List UInt8) (pos clk : Nat) (m : Mem) (a n : Nat) (e : ε)
    (hn : pos + n ≤ img.length) :
    (Accessible m a n ∧ readIntoMem a n e (clean img pos clk m) =
        (.ok (), clean img (pos + n) (clk + 1) (m.store a ((img.drop pos).take n)))) ∨
    (¬ Accessible m a n ∧ ∃ s', readIntoMem a n e (clean img pos clk m) = (.err e, s')) := by
  rw [readIntoMem_none rfl]
  unfold readPrefix
  simp only [ioFails, ioLimit, clean, Reader.rest, Reader.tick, List.length_take, List.length_drop]
  by_cases hm : Accessible m a n
  · refine .inl ⟨hm, ?_⟩
    rw [Mem.prefix_full hm.1, Nat.min_self]
    have hmin : min n (img.length - pos) = n := by omega
    rw [hmin, if_pos ⟨rfl, trivial, Mem.canAccess_iff.2 hm⟩]
  · refine .inr ⟨hm, ?_⟩
    rw [if_neg]
    · exact ⟨_, rfl⟩
    · rintro ⟨-, -, h⟩
      exact hm (Mem.canAccess_iff.1 h)

/-! ## bzImage -/

/-- The header buffer after a read that delivered at most `k` bytes. -/
def bzBuf (img : List UInt8) (k : Nat) : List UInt8 :=
  (bzHeader img).take k ++ List.replicate (123 - ((bzHeader img).take k).length) 0

theorem bzBuf_field (img : List UInt8) (k o n : Nat) (h : o + n ≤ k) (h' : o + n ≤ 123) :
    leField (bzBuf img k) o n = leField img (0x1f1 + o) n := by
  unfold bzBuf bzHeader
  rw [leField_padded, leField_take _ h, leField_window _ h']

theorem bzBuf_length (img : List UInt8) (k : Nat) : (bzBuf img k).length = 123 := by
  unfold bzBuf bzHeader
  simp only [List.length_append, List.length_take, List.length_drop, List.length_replicate]
  omega

theorem bzSetupSize_eq (n : Nat) (h : n < 256) :
    bzSetupSize n = some (((if n = 0 then 4 else n) + 1) * 512) := by
  unfold bzSetupSize checkedAdd checkedMul
  have h1 : (if n = 0 then 4 else n) < 256 := by split <;> omega
  rw [if_pos (by unfold U64; omega)]
  simp only [Option.bind_some]
  rw [if_pos (by unfold U64; omega)]

/-- Obstacles in terms of the header buffer. -/
def bzBufObstacles (img h : List UInt8) (koff highmem : Option GuestAddr) (m : Mem) :
    List (LoadError × Prop) :=
  let setup := ((if shSetupSects h = 0 then 4 else shSetupSects h) + 1) * 512
  let a := bzMemOffset koff (shCode32 h)
  [(.bz .invalidBzImage, shMagic h ≠ 0x53726448 ∨ shVersion h < 0x200 ∨ shLoadflags h % 2 = 0),
   (.bz .underflow, img.length < setup),
   (.invalidKernelStartAddress, ∃ q, highmem = some q ∧ shCode32 h < q.toNat),
   (.bz .readBzImageCompressedKernel, ¬ Accessible m a (img.length - setup)),
   (.memoryOverflow, U64 ≤ a + (img.length - setup))]

theorem bzRest_clean (img h : List UInt8) (koff highmem : Option GuestAddr) (p c : Nat) (m : Mem) :
    (FirstObstacle (bzBufObstacles img h koff highmem m) none ∧ ∃ p' c',
      bzRest koff highmem img.length h (clean img p c m) =
        (.ok ⟨bzMemOffset koff (shCode32 h), bzMemOffset koff (shCode32 h) +
          (img.length - ((if shSetupSects h = 0 then 4 else shSetupSects h) + 1) * 512),
          some (setCode32 h (bzMemOffset koff (shCode32 h))), .ignored⟩,
          clean img p' c' (m.store (bzMemOffset koff (shCode32 h))
            (img.drop (((if shSetupSects h = 0 then 4 else shSetupSects h) + 1) * 512))))) ∨
    ∃ e s', bzRest koff highmem img.length h (clean img p c m) = (.err e, s') ∧
      FirstObstacle (bzBufObstacles img h koff highmem m) (some e) ∧
      (e ≠ .bz .readBzImageCompressedKernel → e ≠ .memoryOverflow → s'.mem = m) := by
  unfold bzRest bzBufObstacles
  have hsec : shSetupSects h < 256 := leField_lt h 0 1
  rw [bzSetupSize_eq _ hsec]
  generalize hsetup : ((if shSetupSects h = 0 then 4 else shSetupSects h) + 1) * 512 = setup
  generalize ha : bzMemOffset koff (shCode32 h) = a
  by_cases h1 : shMagic h = 0x53726448
  · rw [LM.bind_ok (a := ()) (s' := clean img p c m) (by rw [h1]; rfl)]
    by_cases h2 : shVersion h < 0x200 ∨ shLoadflags h % 2 = 0
    · right
      refine ⟨.bz .invalidBzImage, clean img p c m, LM.bind_err ?_, .here (.inr h2), fun _ _ => rfl⟩
      rw [Nat.and_one_is_mod]
      rw [show (decide (shVersion h < 512) || shLoadflags h % 2 == 0) = true by
        simpa using h2]
      rfl
    · rw [LM.bind_ok (a := ()) (s' := clean img p c m) (by
        rw [Nat.and_one_is_mod]
        rw [show (decide (shVersion h < 512) || shLoadflags h % 2 == 0) = false by
          rw [not_or] at h2
          simp only [Bool.or_eq_false_iff, decide_eq_false_iff_not, beq_eq_false_iff_ne, ne_eq]
          exact h2]
        rfl)]
      have o1 : ¬ (shMagic h ≠ 0x53726448 ∨ shVersion h < 0x200 ∨ shLoadflags h % 2 = 0) := by
        rintro (h | h)
        · exact h h1
        · exact h2 h
      rw [LM.okOr_some, LM.bind_ok (LM.pure'_apply setup (clean img p c m))]
      by_cases h3 : img.length < setup
      · right
        refine ⟨.bz .underflow, clean img p c m, LM.bind_err ?_, .later o1 (.here h3), fun _ _ => rfl⟩
        unfold checkedSub
        rw [if_neg (by omega)]
        rfl
      · rw [LM.bind_ok (a := img.length - setup) (s' := clean img p c m) (by
          unfold checkedSub; rw [if_pos (by omega)]; rfl)]
        by_cases h4 : ∃ q, highmem = some q ∧ shCode32 h < q.toNat
        · right
          refine ⟨.invalidKernelStartAddress, clean img p c m, LM.bind_err ?_,
            .later o1 (.later h3 (.here h4)), fun _ _ => rfl⟩
          obtain ⟨q, rfl, hq⟩ := h4
          unfold bzCheckHighmem
          dsimp only
          rw [decide_eq_false (by omega)]
          rfl
        · rw [LM.bind_ok (a := ()) (s' := clean img p c m) (by
            unfold bzCheckHighmem
            cases highmem with
            | none => rfl
            | some q =>
              dsimp only
              have : q.toNat ≤ shCode32 h := Nat.le_of_not_lt fun hn => h4 ⟨q, rfl, hn⟩
              rw [decide_eq_true this]
              rfl)]
          dsimp only
          rw [LM.bind_ok (seekStart_clean ..)]
          rcases readIntoMem_clean' img setup (c + 1) m a (img.length - setup)
            (.bz .readBzImageCompressedKernel : LoadError) (by omega) with ⟨h5, he⟩ | ⟨h5, s', he⟩
          · rw [LM.bind_ok he]
            by_cases h6 : a + (img.length - setup) < U64
            · left
              refine ⟨.later o1 (.later h3 (.later h4 (.later (fun h => h h5)
                (.later (by omega) .none)))), setup + (img.length - setup), c + 1 + 1, ?_⟩
              rw [LM.bind_ok (a := a + (img.length - setup)) (s' := _) (by
                unfold checkedAdd; rw [if_pos h6]; rfl)]
              rw [List.take_of_length_le (by rw [List.length_drop]; omega)]
              rfl
            · right
              refine ⟨.memoryOverflow, clean img (setup + (img.length - setup)) (c + 1 + 1)
                (m.store a ((img.drop setup).take (img.length - setup))), LM.bind_err ?_, .later o1 (.later h3 (.later h4
                (.later (fun h => h h5) (.here (by omega))))), fun _ h => absurd rfl h⟩
              · unfold checkedAdd; rw [if_neg h6]; rfl
          · right
            exact ⟨_, s', LM.bind_err he, .later o1 (.later h3 (.later h4 (.here h5))),
              fun h => absurd rfl h⟩
  · right
    refine ⟨.bz .invalidBzImage, clean img p c m, LM.bind_err ?_, .here (.inl h1), fun _ _ => rfl⟩
    rw [show (shMagic h == 0x53726448) = false by simpa using h1]
    rfl

theorem good_bzRest (koff highmem : Option GuestAddr) (n : Nat) (h : List UInt8) :
    Good (bzRest koff highmem n h) := by
  refine .bind (.require _ _) fun _ => .bind (.require _ _) fun _ => .bind (.okOr _ _) fun _ =>
    .bind (.okOr _ _) fun _ => .bind ?_ fun _ => .bind (.seekStart _ _) fun _ =>
    .bind (.readIntoMem _ _ _) fun _ => .bind (.okOr _ _) fun _ => .pure _
  cases highmem with
  | none => exact .pure _
  | some q => exact .require _ _

/-- The first three operations of `BzImage::load`. -/
theorem bzLoad_head (koff highmem : Option GuestAddr) (s : LS) :
    (∃ e s', bzLoad koff highmem s = (.err e, s') ∧ s'.mem = s.mem ∧ ¬ FaultFree s ∧
      (e = .bz .seekBzImageEnd ∨ e = .bz .seekBzImageHeader ∨ e = .bz .readBzImageHeader)) ∨
    ∃ k s₁, (NoShortReads s → k = 123) ∧ s₁.rd.data = s.rd.data ∧ s₁.mem = s.mem ∧
      s₁.rd.sched = s.rd.sched ∧
      bzLoad koff highmem s = bzRest koff highmem s.rd.data.length (bzBuf s.rd.data k) s₁ := by
  have nf : ∀ s' : LS, s'.rd.sched = s.rd.sched → ioFails s' = true → ¬ FaultFree s := by
    intro s' hs hf hff
    unfold ioFails at hf
    rw [hs, hff] at hf
    cases hf
  unfold bzLoad
  by_cases f0 : ioFails s = true
  · left
    refine ⟨.bz .seekBzImageEnd, { s with rd := s.rd.tick s.rd.pos }, LM.bind_err ?_, rfl,
      nf s rfl f0, .inl rfl⟩
    unfold seekEnd; rw [if_pos f0]
  · rw [LM.bind_ok (a := s.rd.data.length) (s' := { s with rd := s.rd.tick s.rd.data.length }) (by
      unfold seekEnd; rw [if_neg f0])]
    generalize hs1 : ({ s with rd := s.rd.tick s.rd.data.length } : LS) = s1
    have e1 : s1.rd.data = s.rd.data ∧ s1.mem = s.mem ∧ s1.rd.sched = s.rd.sched := by
      subst hs1; exact ⟨rfl, rfl, rfl⟩
    by_cases f1 : ioFails s1 = true
    · left
      refine ⟨.bz .seekBzImageHeader, { s1 with rd := s1.rd.tick s1.rd.pos }, LM.bind_err ?_, e1.2.1,
        nf s1 e1.2.2 f1, .inr (.inl rfl)⟩
      unfold seekStart; rw [if_pos f1]
    · rw [LM.bind_ok (a := ()) (s' := { s1 with rd := s1.rd.tick 0x1f1 }) (by
        unfold seekStart; rw [if_neg f1])]
      generalize hs2 : ({ s1 with rd := s1.rd.tick 0x1f1 } : LS) = s2
      have e2 : s2.rd.rest = s.rd.data.drop 0x1f1 ∧ s2.rd.data = s.rd.data ∧ s2.mem = s.mem ∧
          s2.rd.sched = s.rd.sched := by
        subst hs2; exact ⟨by rw [← e1.1]; rfl, e1.1, e1.2.1, e1.2.2⟩
      have hbuf : ∀ k, (s2.rd.rest.take (min k 123)) = (bzHeader s.rd.data).take k := by
        intro k; rw [e2.1]; unfold bzHeader; rw [List.take_take]
      cases hev : s2.rd.sched s2.rd.clock with
      | fail j =>
        left
        refine ⟨.bz .readBzImageHeader, { s2 with rd := s2.rd.tick s2.rd.pos }, LM.bind_err ?_,
          e2.2.2.1, nf s2 e2.2.2.2 (by unfold ioFails; rw [hev]), .inr (.inr rfl)⟩
        unfold readVolatile; rw [hev]
      | scatter w =>
        left
        refine ⟨.bz .readBzImageHeader, { s2 with rd := s2.rd.tick s2.rd.pos }, LM.bind_err ?_,
          e2.2.2.1, nf s2 e2.2.2.2 (by unfold ioFails; rw [hev]), .inr (.inr rfl)⟩
        unfold readVolatile; rw [hev]
      | short k =>
        right
        refine ⟨k, { s2 with rd := s2.rd.tick (s2.rd.pos + (s2.rd.rest.take (min k 123)).length) },
          fun hns => absurd (by rw [← e2.2.2.2]; exact hev) (hns s2.rd.clock k), e2.2.1, e2.2.2.1,
          e2.2.2.2, ?_⟩
        rw [LM.bind_ok (a := bzBuf s.rd.data k) (s' :=
          { s2 with rd := s2.rd.tick (s2.rd.pos + (s2.rd.rest.take (min k 123)).length) })]
        unfold readVolatile
        rw [hev]
        dsimp only
        rw [hbuf]
        rfl
      | ok =>
        right
        refine ⟨123, { s2 with rd := s2.rd.tick (s2.rd.pos + (s2.rd.rest.take (min 123 123)).length) },
          fun _ => rfl, e2.2.1, e2.2.2.1, e2.2.2.2, ?_⟩
        rw [LM.bind_ok (a := bzBuf s.rd.data 123) (s' :=
          { s2 with rd := s2.rd.tick (s2.rd.pos + (s2.rd.rest.take (min 123 123)).length) })]
        unfold readVolatile
        rw [hev]
        dsimp only
        rw [show s2.rd.rest.take 123 = s2.rd.rest.take (min 123 123) from rfl, hbuf]
        rfl

/-! ### Fields of the image -/

theorem bzMagic_iff (img : List UInt8) : leField img 0x202 4 = 0x53726448 ↔ BzMagicOk img := by
  unfold leField BzMagicOk
  exact leNat_eq_iff (n := 3) (by rw [List.length_take]; omega) (by decide) (by decide)

theorem bzBuf_full (img : List UInt8) :
    (shMagic (bzBuf img 123) = 0x53726448 ↔ BzMagicOk img) ∧
    shVersion (bzBuf img 123) = bzVersion img ∧ shLoadflags (bzBuf img 123) = bzLoadflags img ∧
    shCode32 (bzBuf img 123) = bzCode32 img ∧ shSetupSects (bzBuf img 123) = bzSetupSects img := by
  refine ⟨?_, bzBuf_field img 123 0x15 2 (by omega) (by omega),
    bzBuf_field img 123 0x20 1 (by omega) (by omega), bzBuf_field img 123 0x23 4 (by omega) (by omega),
    bzBuf_field img 123 0 1 (by omega) (by omega)⟩
  rw [← bzMagic_iff]
  unfold shMagic
  rw [bzBuf_field img 123 0x11 4 (by omega) (by omega)]

/-- With a full read the obstacles are those of the specification. -/
theorem bzBufObstacles_full (img : List UInt8) (koff highmem : Option GuestAddr) (m : Mem) :
    bzBufObstacles img (bzBuf img 123) koff highmem m = bzObstacles img koff highmem m := by
  obtain ⟨h1, h2, h3, h4, h5⟩ := bzBuf_full img
  unfold bzBufObstacles bzObstacles
  rw [h2, h3, h4, h5]
  have hk : (bzKernel img).length =
      img.length - ((if bzSetupSects img = 0 then 4 else bzSetupSects img) + 1) * 512 := by
    unfold bzKernel bzSetupBytes; rw [List.length_drop]
  rw [hk]
  have h1' : (shMagic (bzBuf img 123) ≠ 0x53726448) = ¬ BzMagicOk img := propext (not_congr h1)
  rw [h1']
  rfl

/-- The image length of an accepted image is enough for the whole header. -/
theorem bzSetupBytes_ge (img : List UInt8) : 1024 ≤ bzSetupBytes img := by
  unfold bzSetupBytes
  split <;> omega

theorem bzBuf_complete {img : List UInt8} (h : 620 ≤ img.length) : bzBuf img 123 = bzHeader img := by
  unfold bzBuf bzHeader
  have : (((img.drop 0x1f1).take 123).take 123).length = 123 := by
    simp only [List.length_take, List.length_drop]; omega
  rw [this, List.take_take]
  simp

/-- All outcomes of `BzImage::load` with a faultless reader. -/
theorem bzLoad_clean (img : List UInt8) (koff highmem : Option GuestAddr) (p c : Nat) (m : Mem) :
    (FirstObstacle (bzObstacles img koff highmem m) none ∧ ∃ p' c',
      bzLoad koff highmem (clean img p c m) =
        (.ok ⟨bzAddress img koff, bzAddress img koff + (bzKernel img).length,
          some (setCode32 (bzHeader img) (bzAddress img koff)), .ignored⟩,
          clean img p' c' (m.store (bzAddress img koff) (bzKernel img)))) ∨
    ∃ e s', bzLoad koff highmem (clean img p c m) = (.err e, s') ∧
      FirstObstacle (bzObstacles img koff highmem m) (some e) ∧
      (e ≠ .bz .readBzImageCompressedKernel → e ≠ .memoryOverflow → s'.mem = m) := by
  rcases bzLoad_head koff highmem (clean img p c m) with ⟨e, s', -, -, hn, -⟩ | ⟨k, s₁, hk, hd, hm, hs, he⟩
  · exact absurd (fun _ => rfl) hn
  · have hk' := hk (fun i j h => nomatch h)
    subst hk'
    have hs1 : s₁ = clean img s₁.rd.pos s₁.rd.clock m := by
      have := faultFree_eq_clean (s := s₁) (fun i => by rw [hs]; rfl)
      rw [this, hd, hm]
      rfl
    rw [he, hs1]
    show (_ ∧ ∃ p' c', bzRest koff highmem img.length (bzBuf img 123) _ = _) ∨
      ∃ e s', bzRest koff highmem img.length (bzBuf img 123) _ = _ ∧ _
    obtain ⟨h1, h2, h3, h4, h5⟩ := bzBuf_full img
    rcases bzRest_clean img (bzBuf img 123) koff highmem s₁.rd.pos s₁.rd.clock m with
      ⟨ho, p', c', hr⟩ | ⟨e, s', hr, ho, hmem⟩
    · left
      rw [bzBufObstacles_full] at ho
      refine ⟨ho, p', c', ?_⟩
      have hl : ¬ img.length < bzSetupBytes img := firstObstacle_none_iff.1 ho _ (.tail _ (.head _))
      have := bzSetupBytes_ge img
      rw [h4, h5, bzBuf_complete (by omega)] at hr
      have hk : (bzKernel img).length =
          img.length - ((if bzSetupSects img = 0 then 4 else bzSetupSects img) + 1) * 512 := by
        unfold bzKernel bzSetupBytes; rw [List.length_drop]
      rw [bzBuf_complete (by omega), hr, hk]
      rfl
    · right
      rw [bzBufObstacles_full] at ho
      exact ⟨e, s', hr, ho, hmem⟩

/-- Everything a successful load means, for readers without short reads. -/
theorem bzLoad_ok {koff highmem : Option GuestAddr} {s s' : LS} {r : LoadResult}
    (hns : NoShortReads s) (h : bzLoad koff highmem s = (.ok r, s')) :
    FirstObstacle (bzObstacles s.rd.data koff highmem s.mem) none ∧
    r = ⟨bzAddress s.rd.data koff, bzAddress s.rd.data koff + (bzKernel s.rd.data).length,
      some (setCode32 (bzHeader s.rd.data) (bzAddress s.rd.data koff)), .ignored⟩ ∧
    s'.mem = s.mem.store (bzAddress s.rd.data koff) (bzKernel s.rd.data) := by
  rcases bzLoad_head koff highmem s with ⟨e, s'', he, -⟩ | ⟨k, s₁, hk, hd, hm, hs, he⟩
  · rw [he] at h; cases h
  · have hk' := hk hns
    subst hk'
    rw [he] at h
    obtain ⟨t', ht, hsim, -⟩ := (good_bzRest koff highmem _ _).ok s₁
      (clean s₁.rd.data s₁.rd.pos 0 s₁.mem) r s' ⟨rfl, rfl, rfl⟩ (clean_faultless _ _ _ _) h
    rw [hd, hm] at ht
    -- the faultless run of the whole loader
    rcases bzLoad_clean s.rd.data koff highmem 0 0 s.mem with ⟨ho, p', c', hc⟩ | ⟨e, s'', hc, ho, -⟩
    · obtain ⟨h1, h2, h3, h4, h5⟩ := bzBuf_full s.rd.data
      rcases bzRest_clean s.rd.data (bzBuf s.rd.data 123) koff highmem s₁.rd.pos 0 s.mem with
        ⟨-, p'', c'', hr⟩ | ⟨e, s'', hr, ho', -⟩
      · rw [hr] at ht
        have hl : ¬ s.rd.data.length < bzSetupBytes s.rd.data :=
          firstObstacle_none_iff.1 ho _ (.tail _ (.head _))
        have := bzSetupBytes_ge s.rd.data
        have hkl : (bzKernel s.rd.data).length = s.rd.data.length -
            ((if bzSetupSects s.rd.data = 0 then 4 else bzSetupSects s.rd.data) + 1) * 512 := by
          unfold bzKernel bzSetupBytes; rw [List.length_drop]
        rw [h4, h5, bzBuf_complete (by omega), ← hkl] at ht
        cases ht
        exact ⟨ho, rfl, hsim.2.2⟩
      · rw [bzBufObstacles_full] at ho'
        exact nomatch firstObstacle_unique ho ho'
    · rcases bzRest_clean s.rd.data (bzBuf s.rd.data 123) koff highmem s₁.rd.pos 0 s.mem with
        ⟨ho', -⟩ | ⟨e, s'', hr, ho', -⟩
      · rw [bzBufObstacles_full] at ho'
        exact nomatch firstObstacle_unique ho ho'
      · rw [hr] at ht; cases ht

theorem bzLoad_no_panic (koff highmem : Option GuestAddr) (s : LS) :
    (bzLoad koff highmem s).1 ≠ .panic := by
  intro hp
  rcases bzLoad_head koff highmem s with ⟨e, s'', he, -⟩ | ⟨k, s₁, hk, hd, hm, hs, he⟩
  · rw [he] at hp; cases hp
  · rw [he] at hp
    rcases hx : bzRest koff highmem s.rd.data.length (bzBuf s.rd.data k) s₁ with ⟨r, s'⟩
    rw [hx] at hp
    simp only at hp
    subst hp
    obtain ⟨t', ht⟩ := (good_bzRest koff highmem _ _).panic s₁ (clean s.rd.data s₁.rd.pos 0 s.mem) s'
      ⟨hd, rfl, hm⟩ (clean_faultless _ _ _ _) hx
    rcases bzRest_clean s.rd.data (bzBuf s.rd.data k) koff highmem s₁.rd.pos 0 s.mem with
      ⟨-, p'', c'', hr⟩ | ⟨e, s'', hr, -⟩ <;> rw [hr] at ht <;> cases ht

end LinuxLoader
