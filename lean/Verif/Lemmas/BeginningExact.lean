import Verif.Lemmas.BeginningElf

namespace LinuxLoader
open Spec

/-! ## `LeftExactly` -/

theorem LeftExactly.congr {ps : Pieces} {k : Nat} {c c' : Prop} {m m' : Mem} (h : LeftExactly ps k c m m')
    (hc : c ↔ c') : LeftExactly ps k c' m m' := by
  obtain ⟨j, h1, h2, h3⟩ := h
  exact ⟨j, h1, fun hh => h2 (hc.2 hh), fun hh => h3 fun hx => hh (hc.1 hx)⟩

theorem left_stop (ps : Pieces) {c : Prop} (hc : ¬ c) (m : Mem) : LeftExactly ps 0 c m m := by
  refine ⟨0, ?_, fun h => absurd h hc, fun _ => rfl⟩
  have : storeAll m (beginning ps 0 0) = m := by
    cases ps with
    | nil => rfl
    | cons q ps =>
      show m.store q.1 (q.2.take 0) = m
      rw [List.take_zero, store_nil]
  have h := overlaid_storeAll (beginning ps 0 0) m
  rwa [this] at h

theorem left_cut {a : Nat} {bs : List UInt8} {j : Nat} (rest : Pieces) {c : Prop} (hc : c) {m : Mem}
    (h : Reach m a bs.length j) : LeftExactly ((a, bs) :: rest) 0 c m (m.store a (bs.take j)) :=
  ⟨j, overlaid_storeAll _ _, fun _ q hq => by cases hq; exact h, fun hn => absurd hc hn⟩

theorem left_step {a : Nat} {bs : List UInt8} {rest : Pieces} {k : Nat} {c : Prop} {m m' : Mem}
    (h : LeftExactly rest k c (m.store a bs) m') : LeftExactly ((a, bs) :: rest) (k + 1) c m m' := by
  obtain ⟨j, h1, h2, h3⟩ := h
  refine ⟨j, ?_, h2, h3⟩
  rw [overlaid_unique h1]
  exact overlaid_storeAll (beginning ((a, bs) :: rest) (k + 1) j) m

theorem left_all {a : Nat} {bs : List UInt8} {c : Prop} (hc : ¬ c) (m : Mem) :
    LeftExactly [(a, bs)] 1 c m (m.store a bs) := left_step (left_stop [] hc _)

/-! ## Calls with a single piece -/

/-- What the call has left if it failed: nothing, except after an error of the transfer (`et`), and
everything when the end of the image overflows. -/
def Left {α : Type} (q : Nat × List UInt8) (et : LoadError) (m : Mem) (r : Res LoadError α × LS) : Prop :=
  ∀ e, r.1 = .err e → LeftExactly [q] (if e = .memoryOverflow then 1 else 0) (e = et) m r.2.mem

/-- Neither the error of the transfer nor the one behind it. -/
def Early (et e : LoadError) : Prop := e ≠ et ∧ e ≠ .memoryOverflow

instance (et e : LoadError) : Decidable (Early et e) := by unfold Early; infer_instance

/-- Leaves memory alone and fails with early errors only. -/
def Before {α : Type} (et : LoadError) (x : LM LS LoadError α) : Prop :=
  Quiet x ∧ ∀ s e s', x s = (.err e, s') → Early et e

theorem Left.quiet {α β : Type} {q : Nat × List UInt8} {et : LoadError} {x : LM LS LoadError α}
    {f : α → LM LS LoadError β} {m : Mem} {s : LS} (hm : s.mem = m) (hx : Before et x)
    (hf : ∀ a s₁, x s = (.ok a, s₁) → s₁.mem = m → Left q et m (f a s₁)) : Left q et m ((x >>= f) s) := by
  have h := hx.1 s
  rw [LM.bind_def]
  rcases hxs : x s with ⟨r, s₁⟩
  rw [hxs] at h
  cases r with
  | ok a => exact hf a s₁ hxs (Eq.trans h hm)
  | err e =>
    intro e' he
    cases he
    obtain ⟨h1, h2⟩ := hx.2 _ _ _ hxs
    rw [if_neg h2]
    dsimp only
    rw [show s₁.mem = m from Eq.trans h hm]
    exact left_stop _ h1 m
  | panic => intro e' he; cases he

theorem before_seekStart {et e : LoadError} (p : Nat) (h : Early et e) : Before et (seekStart p e) :=
  ⟨.seekStart _ _, fun s e' s' he => by
    unfold seekStart at he; split at he <;> cases he; exact h⟩

theorem before_seekEnd {et e : LoadError} (h : Early et e) : Before et (seekEnd e) :=
  ⟨.seekEnd _, fun s e' s' he => by
    unfold seekEnd at he; split at he <;> cases he; exact h⟩

theorem before_readExact {et e : LoadError} (n : Nat) (h : Early et e) : Before et (readExact n e) :=
  ⟨.readExact _ _, fun s e' s' he => by
    unfold readExact at he; split at he <;> cases he; exact h⟩

theorem before_require {et e : LoadError} (b : Bool) (h : Early et e) :
    Before et (LM.require b e : LM LS LoadError Unit) :=
  ⟨.require _ _, fun s e' s' he => by
    unfold LM.require at he; split at he <;> cases he; exact h⟩

theorem before_okOr {α : Type} {et e : LoadError} (o : Option α) (h : Early et e) :
    Before et (LM.okOr o e : LM LS LoadError α) :=
  ⟨.okOr _ _, fun s e' s' he => by
    cases o <;> cases he; exact h⟩

theorem before_pure {α : Type} {et : LoadError} (a : α) : Before et (pure a : LM LS LoadError α) :=
  ⟨.pure _, fun s e' s' he => by cases he⟩

theorem left_transfer {a n : Nat} {et : LoadError} (het : et ≠ .memoryOverflow) {s : LS} (hf : FaultFree s) :
    Left (a, s.rd.rest.take n) et s.mem (readIntoMem a n et s) := by
  intro e he
  obtain ⟨j, hj, hm⟩ := readIntoMem_mem a n et s hf
  have : e = et := by
    have hsc : scatterOf s = none := by unfold scatterOf; rw [hf]
    rw [readIntoMem_none hsc] at he
    unfold readPrefix at he
    dsimp only at he
    split at he <;> cases he
    rfl
  subst this
  rw [if_neg het, hm]
  exact left_cut _ rfl hj

/-- A transfer and the check of the end. -/
theorem left_tail {β : Type} {a n : Nat} {et : LoadError} (het : et ≠ .memoryOverflow) {s : LS} (hf : FaultFree s)
    (o : Option Nat) (g : Nat → β) :
    Left (a, s.rd.rest.take n) et s.mem ((readIntoMem a n et >>= fun _ =>
      (LM.okOr o .memoryOverflow : LM LS LoadError Nat) >>= fun e => (pure (g e) : LM LS LoadError β)) s) := by
  intro e he
  have hl := left_transfer (a := a) (n := n) het hf
  rw [LM.bind_def] at he ⊢
  rcases hx : readIntoMem a n et s with ⟨r, s₁⟩
  rw [hx] at he hl
  cases r with
  | err e' => cases he; exact hl e rfl
  | panic => cases he
  | ok u =>
    obtain ⟨hm, -⟩ := readIntoMem_ok_mem hx
    cases o with
    | some v => cases he
    | none =>
      cases he
      rw [if_pos rfl]
      show LeftExactly _ 1 _ s.mem s₁.mem
      rw [hm]
      exact left_all (fun h => het h.symm) _

theorem left_peLoad (arch : PeArch) (koff highmem : Option GuestAddr) (s : LS) (hf : FaultFree s) :
    Left (peAddress arch s.rd.data koff, s.rd.data) (.pe .readKernelImage) s.mem
      (peLoad arch koff highmem s) := by
  unfold peLoad
  refine Left.quiet rfl (before_seekEnd (by decide)) fun size s₁ h1 m1 => ?_
  obtain ⟨hsz, e1⟩ := seekEnd_eq_ok h1
  refine Left.quiet m1 (before_seekStart _ (by decide)) fun u s₂ h2 m2 => ?_
  have e2 := seekStart_eq_ok h2
  refine Left.quiet m2 (before_readExact _ (by decide)) fun h s₃ h3 m3 => ?_
  obtain ⟨hh, d3, c3⟩ := readExact_eq_ok h3
  have hd2 : s₂.rd.data = s.rd.data := by rw [e2, e1]; rfl
  have hh' : h = s.rd.data.take 64 := by
    rw [hh, e2, e1]; rfl
  have hd3 : s₃.rd.data = s.rd.data := d3.trans hd2
  refine Left.quiet m3 (before_require _ (by decide)) fun u s₄ h4 m4 => ?_
  obtain ⟨-, rfl⟩ := LM.require_eq_ok.1 h4
  refine Left.quiet m3 ?_ fun u s₅ h5 m5 => ?_
  · cases koff with
    | none => exact before_pure _
    | some h => exact before_require _ (by decide)
  have h5' : s₅ = s₄ := by
    unfold peCheckAlign at h5
    cases koff with
    | none => cases h5; rfl
    | some k => exact (LM.require_eq_ok.1 h5).2.symm ▸ rfl
  subst h5'
  refine Left.quiet m3 (before_okOr _ (by decide)) fun a s₆ h6 m6 => ?_
  obtain ⟨ha, rfl⟩ := LM.okOr_eq_ok.1 h6
  have haddr : a = peAddress arch s.rd.data koff := by
    rw [hh', peTextOffset_eq] at ha
    unfold checkedAdd at ha
    split at ha
    · rw [Option.some.injEq] at ha
      rw [← ha]
      unfold peAddress koffBase peBase
      cases koff <;> rfl
    · cases ha
  subst haddr
  refine Left.quiet m3 (before_seekStart _ (by decide)) fun u s₇ h7 m7 => ?_
  have e7 := seekStart_eq_ok h7
  have hr : s₇.rd.rest.take size = s.rd.data := by
    have : s₇.rd.rest = s.rd.data := by
      rw [e7, ← hd3]
      show List.drop 0 _ = _
      rw [List.drop_zero]
      rfl
    rw [this, hsz, List.take_length]
  have hs7 : s₇.rd.sched = s.rd.sched := by
    rw [e7]; exact c3.trans (by rw [e2, e1]; rfl)
  have := left_tail (a := peAddress arch s.rd.data koff) (n := size) (et := .pe .readKernelImage) (by decide)
    (s := s₇) (fun i => by rw [hs7]; exact hf i) (checkedAdd (peAddress arch s.rd.data koff) size)
    (fun e => (⟨peAddress arch s.rd.data koff, e, none, .ignored⟩ : LoadResult))
  rw [hr, m7] at this
  exact this

theorem left_loadDtb (a : GuestAddr) (s : LS) (hf : FaultFree s) :
    Left (a.toNat, s.rd.data) (.pe .readDtbImage) s.mem (loadDtb a s) := by
  unfold loadDtb
  refine Left.quiet rfl (before_seekEnd (by decide)) fun size s₁ h1 m1 => ?_
  obtain ⟨hsz, e1⟩ := seekEnd_eq_ok h1
  refine Left.quiet m1 (before_require _ (by decide)) fun u s₄ h4 m4 => ?_
  obtain ⟨-, rfl⟩ := LM.require_eq_ok.1 h4
  refine Left.quiet m1 (before_seekStart _ (by decide)) fun u s₇ h7 m7 => ?_
  have e7 := seekStart_eq_ok h7
  have hr : s₇.rd.rest.take size = s.rd.data := by
    have : s₇.rd.rest = s.rd.data := by rw [e7, e1]; rfl
    rw [this, hsz, List.take_length]
  have := left_transfer (a := a.toNat) (n := size) (et := .pe .readDtbImage) (by decide)
    (s := s₇) (fun i => by rw [e7, e1]; exact hf i)
  rw [hr, m7] at this
  exact this

theorem left_bzRest (koff highmem : Option GuestAddr) (h : List UInt8) (s : LS) (hf : FaultFree s) :
    (∃ e, bzRest koff highmem s.rd.data.length h s = (.err e, s) ∧ Early (.bz .readBzImageCompressedKernel) e) ∨
    (shMagic h = 0x53726448 ∧
      Left (bzMemOffset koff (shCode32 h),
        s.rd.data.drop (((if shSetupSects h = 0 then 4 else shSetupSects h) + 1) * 512))
        (.bz .readBzImageCompressedKernel) s.mem (bzRest koff highmem s.rd.data.length h s)) := by
  by_cases hm : shMagic h = 0x53726448
  · refine .inr ⟨hm, ?_⟩
    generalize hn : s.rd.data.length = n
    unfold bzRest
    refine Left.quiet rfl (before_require _ (by decide)) fun u s₁ h1 m1 => ?_
    obtain ⟨-, rfl⟩ := LM.require_eq_ok.1 h1
    refine Left.quiet m1 (before_require _ (by decide)) fun u s₁ h1 m1 => ?_
    obtain ⟨-, rfl⟩ := LM.require_eq_ok.1 h1
    refine Left.quiet m1 (before_okOr _ (by decide)) fun setup s₁ h1 m1 => ?_
    obtain ⟨hsetup, rfl⟩ := LM.okOr_eq_ok.1 h1
    refine Left.quiet m1 (before_okOr _ (by decide)) fun k s₀ h1 m1 => ?_
    obtain ⟨hk, rfl⟩ := LM.okOr_eq_ok.1 h1
    refine Left.quiet m1 ?_ fun u s₁ h1 m1 => ?_
    · cases highmem with
      | none => exact before_pure _
      | some h => exact before_require _ (by decide)
    have e1 : s₁ = s₀ := by
      unfold bzCheckHighmem at h1
      cases highmem with
      | none => cases h1; rfl
      | some k => exact (LM.require_eq_ok.1 h1).2.symm ▸ rfl
    subst e1
    refine Left.quiet m1 (before_seekStart _ (by decide)) fun u s₇ h7 m7 => ?_
    have e7 := seekStart_eq_ok h7
    rw [bzSetupSize_eq (shSetupSects h) (leField_lt h 0 1), Option.some.injEq] at hsetup
    have hk' : n - setup = k := by
      unfold checkedSub at hk
      split at hk
      · cases hk; rfl
      · cases hk
    have hr : s₇.rd.rest.take k =
        s₁.rd.data.drop (((if shSetupSects h = 0 then 4 else shSetupSects h) + 1) * 512) := by
      have : s₇.rd.rest = s₁.rd.data.drop (((if shSetupSects h = 0 then 4 else shSetupSects h) + 1) * 512) := by
        rw [e7, ← hsetup]; rfl
      rw [this, List.take_of_length_le]
      rw [List.length_drop, hn, hsetup, hk']
      exact Nat.le_refl _
    have := left_tail (a := bzMemOffset koff (shCode32 h)) (n := k) (et := .bz .readBzImageCompressedKernel)
      (by decide) (s := s₇) (fun i => by rw [e7]; exact hf i)
      (checkedAdd (bzMemOffset koff (shCode32 h)) k)
      (fun e => (⟨bzMemOffset koff (shCode32 h), e, some (setCode32 h (bzMemOffset koff (shCode32 h))), .ignored⟩ :
        LoadResult))
    rw [hr, m7] at this
    exact this
  · left
    refine ⟨.bz .invalidBzImage, ?_, by decide⟩
    unfold bzRest
    rw [LM.bind_err (e := .bz .invalidBzImage) (s' := s)]
    unfold LM.require
    rw [if_neg (by simpa using hm)]
    rfl

theorem left_bzLoad (koff highmem : Option GuestAddr) (s : LS) (hf : FaultFree s) :
    Left (bzAddress s.rd.data koff, bzKernel s.rd.data) (.bz .readBzImageCompressedKernel) s.mem
      (bzLoad koff highmem s) := by
  rcases bzLoad_head koff highmem s with ⟨e, s'', -, -, hn, -⟩ | ⟨k, s₁, hk, hd, hm, hs, he⟩
  · exact absurd hf hn
  · have hk : k = 123 := hk fun i k h => by rw [hf i] at h; cases h
    rw [he, ← hd]
    rcases left_bzRest koff highmem (bzBuf s.rd.data k) s₁ (fun i => by rw [hs]; exact hf i) with
      ⟨e, h0, h1⟩ | ⟨hmg, h0⟩
    · rw [← hd] at h0
      rw [h0]
      intro e' he'
      cases he'
      rw [if_neg h1.2]
      dsimp only
      rw [hm]
      exact left_stop _ h1.1 _
    · have haddr : bzMemOffset koff (shCode32 (bzBuf s.rd.data k)) = bzAddress s.rd.data koff := by
        rw [hk, (bzBuf_full s.rd.data).2.2.2.1]; rfl
      rw [haddr, bzBuf_sects hmg, hm] at h0
      rw [hd] at h0 ⊢
      exact h0

/-! ## Writes -/

theorem left_writeSliceOr {ε : Type} {bs : List UInt8} {a : GuestAddr} {e e' : ε} {m : Mem} (rest : Pieces)
    {c : Prop} (hc : c) (h : (writeSliceOr bs a e m).1 = .err e') :
    e' = e ∧ LeftExactly ((a.toNat, bs) :: rest) 0 c m (writeSliceOr bs a e m).2 := by
  rw [writeSliceOr_eq] at h ⊢
  refine ⟨?_, left_cut rest hc (reach_prefix m a.toNat bs.length)⟩
  split at h <;> cases h
  rfl

theorem left_guarded {ε : Type} {bs : List UInt8} {a : GuestAddr} {e₁ e₂ e : ε} (hne : e₁ ≠ e₂) {m : Mem}
    (rest : Pieces) (h : (guardedWrite bs a e₁ e₂ m).1 = .err e) :
    (e = e₁ ∨ e = e₂) ∧ LeftExactly ((a.toNat, bs) :: rest) 0 (e = e₂) m (guardedWrite bs a e₁ e₂ m).2 := by
  unfold guardedWrite at h ⊢
  rw [LM.bind_def, checkedOffsetOr_eq] at h ⊢
  cases hc : m.checkedOffset a bs.length with
  | none =>
    rw [hc] at h
    cases h
    exact ⟨.inl rfl, left_stop _ hne _⟩
  | some o =>
    rw [hc] at h
    obtain ⟨rfl, -⟩ := left_writeSliceOr [] trivial h
    exact ⟨.inr rfl, (left_writeSliceOr rest rfl h).2⟩

end LinuxLoader
