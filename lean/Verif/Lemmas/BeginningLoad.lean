import Verif.Lemmas.Beginning

namespace LinuxLoader
open Spec

variable {P : Nat → List UInt8 → Nat → Prop}

/-- How transfers from a reader with this schedule into a memory with this layout can be cut. -/
def Transfers (P : Nat → List UInt8 → Nat → Prop) (sch : Nat → IoEvent) (m : Mem) : Prop :=
  ∀ (a n : Nat) (e : LoadError) (t : LS), t.rd.sched = sch → SameLayout m t.mem →
    Begun P [(a, t.rd.rest.take n)] t.mem (readIntoMem a n e t).2.mem

theorem transfers_any {sch : Nat → IoEvent} (h : ∀ i w, sch i ≠ .scatter w) (m : Mem) :
    Transfers anyCut sch m := by
  rintro a n e t rfl -
  exact begun_readIntoMem a n e t h

theorem transfers_clean {sch : Nat → IoEvent} (h : ∀ i, sch i = .ok) (m : Mem) :
    Transfers (unmappedCut m) sch m := by
  rintro a n e t rfl hl
  exact (begun_readIntoMem_clean a n e t h).mono fun a bs j hr => (reach_layout hl).1 hr

theorem overlaid_unique {ps : Pieces} {m m' : Mem} (h : Overlaid ps m m') : m' = storeAll m ps := by
  obtain ⟨⟨h1, h2⟩, h3⟩ := h
  obtain ⟨k1, k2⟩ := storeAll_layout m ps
  have hd : m'.data = (storeAll m ps).data := funext fun x => by rw [h3 x, storeAll_data]
  generalize hM : storeAll m ps = M at *
  obtain ⟨r, d, e⟩ := M
  obtain ⟨r', d', e'⟩ := m'
  simp only at h1 h2 k1 k2 hd
  subst h1 h2 hd
  rw [k1, k2]

theorem begun_quiet {ε α β : Type} {ps : Pieces} {x : LM LS ε α} {f : α → LM LS ε β} {s : LS}
    (hx : Quiet x) (hf : ∀ a s₁, x s = (.ok a, s₁) → s₁.mem = s.mem → Begun P ps s₁.mem (f a s₁).2.mem) :
    Begun P ps s.mem ((x >>= f) s).2.mem := by
  have h := hx s
  rw [LM.bind_def]
  rcases hxs : x s with ⟨r, s₁⟩
  rw [hxs] at h
  cases r with
  | ok a => exact h ▸ hf a s₁ hxs h
  | err e => rw [show s₁.mem = s.mem from h]; exact .stop _ _
  | panic => rw [show s₁.mem = s.mem from h]; exact .stop _ _

theorem begun_then {ε α β : Type} {ps : Pieces} {x : LM LS ε α} {f : α → LM LS ε β} {s : LS}
    (hx : Begun P ps s.mem (x s).2.mem) (hf : ∀ a, Quiet (f a)) :
    Begun P ps s.mem ((x >>= f) s).2.mem := by
  rw [LM.bind_def]
  rcases hxs : x s with ⟨r, s₁⟩
  rw [hxs] at hx
  cases r with
  | ok a => dsimp only; rw [hf a s₁]; exact hx
  | err e => exact hx
  | panic => exact hx

/-- A transfer that succeeds has stored everything. -/
theorem readIntoMem_ok_mem {ε : Type} {a n : Nat} {e : ε} {s s' : LS} {u : Unit}
    (h : readIntoMem a n e s = (.ok u, s')) :
    s'.mem = s.mem.store a (s.rd.rest.take n) ∧ s'.rd.data = s.rd.data ∧ s'.rd.sched = s.rd.sched := by
  cases hw : scatterOf s with
  | some w => rw [readIntoMem_some hw] at h; cases h
  | none =>
    rw [readIntoMem_none hw] at h
    unfold readPrefix at h
    dsimp only at h
    split at h
    · rename_i hc
      cases h
      refine ⟨?_, rfl, rfl⟩
      have hlen := hc.1
      rw [List.length_take] at hlen
      have : s.rd.rest.take (min (s.mem.mappedPrefix a n) (ioLimit s n)) = s.rd.rest.take n := by
        have h1 := s.mem.mappedPrefix_le a n
        have hn : min (s.mem.mappedPrefix a n) (ioLimit s n) ≤ n := by omega
        have : min (s.mem.mappedPrefix a n) (ioLimit s n) = n := by omega
        rw [this]
      show s.mem.store a _ = _
      rw [this]
    · cases h

theorem begun_loadSegment (koff : Option GuestAddr) (ph : Phdr) (kend : Nat) (s : LS) (hp : ph.paddr < U64)
    (hT : Transfers P s.rd.sched s.mem) :
    Begun P [(koffBase koff + ph.paddr, ph.contents s.rd.data)] s.mem (loadSegment koff ph kend s).2.mem ∧
    ((loadSegment koff ph kend s).1.isOk = true →
      (loadSegment koff ph kend s).2.mem = s.mem.store (koffBase koff + ph.paddr) (ph.contents s.rd.data)) := by
  constructor
  · unfold loadSegment
    refine begun_quiet (.seekStart _ _) fun u s₁ h1 m1 => ?_
    have e1 := seekStart_eq_ok h1
    refine begun_quiet (.okOr _ _) fun a s₂ h2 m2 => ?_
    rw [LM.okOr_eq_ok, segmentAddr_eq koff ph hp] at h2
    obtain ⟨h2, rfl⟩ := h2
    have ha : a = koffBase koff + ph.paddr := by
      split at h2
      · cases h2; rfl
      · cases h2
    refine begun_then ?_ fun _ => .bind (.okOr _ _) fun _ => .pure _
    have := hT a ph.filesz (.elf .readKernelImage) s₂ (by rw [e1]; rfl) (by rw [m1]; exact ⟨rfl, rfl⟩)
    rw [ha] at this ⊢
    have hr : s₂.rd.rest.take ph.filesz = ph.contents s.rd.data := by rw [e1]; rfl
    rw [hr] at this
    exact this
  · intro hok
    obtain ⟨v, hv⟩ := isOk_iff.1 hok
    have hv : loadSegment koff ph kend s = (.ok v, (loadSegment koff ph kend s).2) := Prod.ext hv rfl
    generalize (loadSegment koff ph kend s).2 = s' at hv ⊢
    unfold loadSegment at hv
    obtain ⟨u, s₁, h1, hv1⟩ := LM.bind_eq_ok.1 hv
    have e1 := seekStart_eq_ok h1
    obtain ⟨a, s₂, h2, hv2⟩ := LM.bind_eq_ok.1 hv1
    rw [LM.okOr_eq_ok, segmentAddr_eq koff ph hp] at h2
    obtain ⟨h2, rfl⟩ := h2
    have ha : a = koffBase koff + ph.paddr := by
      split at h2
      · cases h2; rfl
      · cases h2
    obtain ⟨u, s₃, h3, hv3⟩ := LM.bind_eq_ok.1 hv2
    obtain ⟨b, s₄, h4, hv4⟩ := LM.bind_eq_ok.1 hv3
    obtain ⟨-, rfl⟩ := LM.okOr_eq_ok.1 h4
    cases hv4
    rw [(readIntoMem_ok_mem h3).1, ha, e1]
    rfl

theorem begun_loadSegments (img : List UInt8) (koff : Option GuestAddr) :
    ∀ (phs : List Phdr) (kend : Nat) (cap : PvhCap) (s : LS), s.rd.data = img →
      (∀ h ∈ phs, h.paddr < U64) → Transfers P s.rd.sched s.mem →
      Begun P (piecesOf img koff phs) s.mem (loadSegments koff phs kend cap s).2.mem := by
  intro phs
  induction phs with
  | nil => intro kend cap s _ _ _; exact .stop _ _
  | cons h t ih =>
    intro kend cap s hd hp hT
    have hpt : ∀ h ∈ t, h.paddr < U64 := fun x hx => hp x (by simp [hx])
    unfold loadSegments
    split
    · rename_i hl
      have hlo : ¬ h.Loadable := by unfold Phdr.Loadable; unfold PT_LOAD at hl; omega
      have hpc : piecesOf img koff (h :: t) = piecesOf img koff t := by simp [piecesOf, hlo]
      rw [hpc]
      split
      · cases koff with
        | some k => exact ih _ _ s hd hpt hT
        | none =>
          refine begun_quiet (quiet_parseNote _) fun c s₁ h1 m1 => ?_
          have := (good_parseNote h).data s
          rw [h1] at this
          exact ih _ _ s₁ (this.1.trans hd) hpt (by rw [m1, this.2]; exact hT)
      · exact ih _ _ s hd hpt hT
    · rename_i hl
      have hlo : h.Loadable := by unfold Phdr.Loadable; unfold PT_LOAD at hl; omega
      have hpc : piecesOf img koff (h :: t) =
          [(koffBase koff + h.paddr, h.contents img)] ++ piecesOf img koff t := by simp [piecesOf, hlo]
      rw [hpc]
      obtain ⟨b1, b2⟩ := begun_loadSegment koff h kend s (hp h (by simp)) hT
      rw [hd] at b1 b2
      rw [LM.bind_def]
      have hg := (good_loadSegment koff h kend).data s
      have hlay := (good_loadSegment koff h kend).layout s
      rcases hx : loadSegment koff h kend s with ⟨r, s₁⟩
      rw [hx] at b1 b2 hg hlay
      cases r with
      | err e => exact b1.append _
      | panic => exact b1.append _
      | ok c =>
        have hm := b2 rfl
        simp only at hm
        refine begun_after ?_
        show Begun P _ (s.mem.store _ _) _
        rw [← hm]
        refine ih _ _ s₁ (hg.1.trans hd) hpt ?_
        rw [hg.2]
        exact fun a n e t h1 h2 => hT a n e t h1 ⟨h2.1.trans hlay.1, h2.2.trans hlay.2⟩

theorem begun_elfLoad (koff highmem : Option GuestAddr) (s : LS) (hT : Transfers P s.rd.sched s.mem) :
    Begun P (elfPieces s.rd.data koff) s.mem (elfLoad koff highmem s).2.mem := by
  unfold elfLoad
  refine begun_quiet (.seekStart _ _) fun u s₁ h1 m1 => ?_
  have e1 := seekStart_eq_ok h1
  refine begun_quiet (.readExact _ _) fun eh s₂ h2 m2 => ?_
  have heh : eh = s.rd.data.take 64 ∧ s₂.rd.data = s.rd.data ∧ s₂.rd.sched = s.rd.sched := by
    unfold readExact at h2
    split at h2
    · cases h2
    · cases h2
      rw [e1]
      exact ⟨rfl, rfl, rfl⟩
  refine begun_quiet (.ofRes _) fun u s₃ h3 m3 => ?_
  rw [LM.ofRes_apply] at h3
  obtain rfl : s₂ = s₃ := (Prod.mk.inj h3).2
  refine begun_quiet ?_ fun u s₃ h3 m3 => ?_
  · cases highmem with
    | none => exact Quiet.pure _
    | some h => exact Quiet.require _ _
  have d3 := (good_checkEntry highmem (ehEntry eh)).data s₂
  rw [h3] at d3
  refine begun_quiet ?_ fun kl s₄ h4 m4 => ?_
  · cases koff with
    | none => exact Quiet.pure _
    | some h => exact Quiet.okOr _ _
  have d4 := (good_elfKernelLoad koff (ehEntry eh)).data s₃
  rw [h4] at d4
  refine begun_quiet (.seekStart _ _) fun u s₅ h5 m5 => ?_
  have e5 := seekStart_eq_ok h5
  refine begun_quiet (quiet_readPhdrs _) fun phs s₆ h6 m6 => ?_
  have d6 := (good_readPhdrs (ehPhnum eh)).data s₅
  rw [h6] at d6
  have hd5 : s₅.rd.data = s.rd.data := by
    rw [e5]; exact d4.1.trans (d3.1.trans heh.2.1)
  have hs6 : s₆.rd.sched = s.rd.sched := by
    refine d6.2.trans ?_
    rw [e5]; exact d4.2.trans (d3.2.trans heh.2.2)
  have hm6 : s₆.mem = s.mem := by rw [m6, m5, m4, m3, m2, m1]
  have hd6 : s₆.rd.data = s.rd.data := d6.1.trans hd5
  obtain ⟨t', ht, -, -⟩ := (good_readPhdrs (ehPhnum eh)).ok s₅
    (clean s₅.rd.data s₅.rd.pos 0 s₅.mem) phs s₆ ⟨rfl, rfl, rfl⟩ (clean_faultless _ _ _ _) h6
  have hpos : s₅.rd.pos = elfPhoff s.rd.data := by
    rw [e5]
    show ehPhoff eh = _
    rw [heh.1]
    exact leField_take _ (by omega)
  have hnum : ehPhnum eh = elfPhnum s.rd.data := by
    rw [heh.1]
    exact leField_take _ (by omega)
  have hphs : phs = elfPhdrs s.rd.data := by
    rcases readPhdrs_clean s₅.rd.data s₅.mem (ehPhnum eh) s₅.rd.pos 0 with
      ⟨-, p', c', he⟩ | ⟨-, p', c', he⟩
    · rw [he] at ht
      cases ht
      rw [hd5, hpos, hnum]
      rfl
    · rw [he] at ht
      cases ht
  rw [hphs]
  refine begun_then ?_ fun _ => .pure _
  exact begun_loadSegments s.rd.data koff (elfPhdrs s.rd.data) 0 .ignored s₆ hd6 (phdr_paddr_lt _)
    (by rw [hs6, hm6]; exact hT)

theorem begun_peLoad (arch : PeArch) (koff highmem : Option GuestAddr) (s : LS)
    (hT : Transfers P s.rd.sched s.mem) :
    Begun P [(peAddress arch s.rd.data koff, s.rd.data)] s.mem (peLoad arch koff highmem s).2.mem := by
  unfold peLoad
  refine begun_quiet (.seekEnd _) fun size s₁ h1 m1 => ?_
  obtain ⟨hsz, e1⟩ := seekEnd_eq_ok h1
  refine begun_quiet (.seekStart _ _) fun u s₂ h2 m2 => ?_
  have e2 := seekStart_eq_ok h2
  refine begun_quiet (.readExact _ _) fun h s₃ h3 m3 => ?_
  obtain ⟨hh, d3, c3⟩ := readExact_eq_ok h3
  have hd2 : s₂.rd.data = s.rd.data := by rw [e2, e1]; rfl
  have hh' : h = s.rd.data.take 64 := by
    rw [hh, e2, e1]; rfl
  have hd3 : s₃.rd.data = s.rd.data := d3.trans hd2
  refine begun_quiet (.require _ _) fun u s₄ h4 m4 => ?_
  obtain ⟨-, rfl⟩ := LM.require_eq_ok.1 h4
  refine begun_quiet ?_ fun u s₅ h5 m5 => ?_
  · cases koff with
    | none => exact Quiet.pure _
    | some h => exact Quiet.require _ _
  have h5' : s₅ = s₄ := by
    unfold peCheckAlign at h5
    cases koff with
    | none => cases h5; rfl
    | some k => exact (LM.require_eq_ok.1 h5).2.symm ▸ rfl
  subst h5'
  refine begun_quiet (.okOr _ _) fun a s₆ h6 m6 => ?_
  obtain ⟨ha, rfl⟩ := LM.okOr_eq_ok.1 h6
  have haddr : a = peAddress arch s.rd.data koff := by
    rw [hh', peTextOffset_eq] at ha
    unfold checkedAdd at ha
    split at ha
    · rw [Option.some.injEq] at ha
      rw [← ha]
      unfold peAddress koffBase peBase
      cases koff <;> rfl
    · cases ha
  subst haddr
  refine begun_quiet (.seekStart _ _) fun u s₇ h7 m7 => ?_
  have e7 := seekStart_eq_ok h7
  refine begun_then ?_ fun _ => .bind (.okOr _ _) fun _ => .pure _
  have hr : s₇.rd.rest.take size = s.rd.data := by
    have : s₇.rd.rest = s.rd.data := by
      rw [e7, ← hd3]
      show List.drop 0 _ = _
      rw [List.drop_zero]
      rfl
    rw [this, hsz, List.take_length]
  have hs7 : s₇.rd.sched = s.rd.sched := by
    rw [e7]; exact c3.trans (by rw [e2, e1]; rfl)
  have hm7 : s₇.mem = s.mem := by rw [m7, m3, m2, m1]
  have := hT (peAddress arch s.rd.data koff) size (.pe .readKernelImage) s₇ hs7 (by rw [hm7]; exact ⟨rfl, rfl⟩)
  rw [hr] at this
  exact this

theorem begun_loadDtb (a : GuestAddr) (s : LS) (hT : Transfers P s.rd.sched s.mem) :
    Begun P [(a.toNat, s.rd.data)] s.mem (loadDtb a s).2.mem := by
  unfold loadDtb
  refine begun_quiet (.seekEnd _) fun size s₁ h1 m1 => ?_
  obtain ⟨hsz, e1⟩ := seekEnd_eq_ok h1
  refine begun_quiet (.require _ _) fun u s₄ h4 m4 => ?_
  obtain ⟨-, rfl⟩ := LM.require_eq_ok.1 h4
  refine begun_quiet (.seekStart _ _) fun u s₇ h7 m7 => ?_
  have e7 := seekStart_eq_ok h7
  have hr : s₇.rd.rest.take size = s.rd.data := by
    have : s₇.rd.rest = s.rd.data := by rw [e7, e1]; rfl
    rw [this, hsz, List.take_length]
  have := hT a.toNat size (.pe .readDtbImage) s₇ (by rw [e7, e1]; rfl)
    (by rw [m7, m1]; exact ⟨rfl, rfl⟩)
  rw [hr] at this
  exact this

theorem begun_bzRest (koff highmem : Option GuestAddr) (h : List UInt8) (s : LS)
    (hT : Transfers P s.rd.sched s.mem) :
    (bzRest koff highmem s.rd.data.length h s).2.mem = s.mem ∨
    (shMagic h = 0x53726448 ∧
      Begun P [(bzMemOffset koff (shCode32 h),
        s.rd.data.drop (((if shSetupSects h = 0 then 4 else shSetupSects h) + 1) * 512))] s.mem
        (bzRest koff highmem s.rd.data.length h s).2.mem) := by
  by_cases hm : shMagic h = 0x53726448
  · refine .inr ⟨hm, ?_⟩
    generalize hn : s.rd.data.length = n
    unfold bzRest
    refine begun_quiet (.require _ _) fun u s₁ h1 m1 => ?_
    obtain ⟨-, rfl⟩ := LM.require_eq_ok.1 h1
    refine begun_quiet (.require _ _) fun u s₁ h1 m1 => ?_
    obtain ⟨-, rfl⟩ := LM.require_eq_ok.1 h1
    refine begun_quiet (.okOr _ _) fun setup s₁ h1 m1 => ?_
    obtain ⟨hsetup, rfl⟩ := LM.okOr_eq_ok.1 h1
    refine begun_quiet (.okOr _ _) fun k s₀ h1 m1 => ?_
    obtain ⟨hk, rfl⟩ := LM.okOr_eq_ok.1 h1
    refine begun_quiet ?_ fun u s₁ h1 m1 => ?_
    · cases highmem with
      | none => exact Quiet.pure _
      | some h => exact Quiet.require _ _
    have e1 : s₁ = s₀ := by
      unfold bzCheckHighmem at h1
      cases highmem with
      | none => cases h1; rfl
      | some k => exact (LM.require_eq_ok.1 h1).2.symm ▸ rfl
    subst e1
    refine begun_quiet (.seekStart _ _) fun u s₇ h7 m7 => ?_
    have e7 := seekStart_eq_ok h7
    refine begun_then ?_ fun _ => .bind (.okOr _ _) fun _ => .pure _
    rw [bzSetupSize_eq (shSetupSects h) (leField_lt h 0 1), Option.some.injEq] at hsetup
    have hk' : n - setup = k := by
      unfold checkedSub at hk
      split at hk
      · cases hk; rfl
      · cases hk
    have hr : s₇.rd.rest.take k =
        s₁.rd.data.drop (((if shSetupSects h = 0 then 4 else shSetupSects h) + 1) * 512) := by
      have : s₇.rd.rest = s₁.rd.data.drop (((if shSetupSects h = 0 then 4 else shSetupSects h) + 1) * 512) := by
        rw [e7, ← hsetup]; rfl
      rw [this, List.take_of_length_le]
      rw [List.length_drop, hn, hsetup, hk']
      exact Nat.le_refl _
    have := hT (bzMemOffset koff (shCode32 h)) k (.bz .readBzImageCompressedKernel) s₇ (by rw [e7]; rfl)
      (by rw [m7]; exact ⟨rfl, rfl⟩)
    rw [hr] at this
    exact this
  · left
    unfold bzRest
    rw [LM.bind_err (e := .bz .invalidBzImage) (s' := s)]
    unfold LM.require
    rw [if_neg (by simpa using hm)]
    rfl

theorem begun_bzLoad (koff highmem : Option GuestAddr) (s : LS) (h : NoShortReads s ∨ koff ≠ none)
    (hT : Transfers P s.rd.sched s.mem) :
    Begun P [(bzAddress s.rd.data koff, bzKernel s.rd.data)] s.mem (bzLoad koff highmem s).2.mem := by
  rcases bzLoad_head koff highmem s with ⟨e, s'', he, hm, -⟩ | ⟨k, s₁, hk, hd, hm, hs, he⟩
  · rw [he]
    simp only
    rw [hm]
    exact .stop _ _
  · rw [he, ← hd]
    rcases begun_bzRest koff highmem (bzBuf s.rd.data k) s₁ (by rw [hs, hm]; exact hT) with h0 | ⟨hmg, h0⟩
    · rw [← hd] at h0
      rw [h0, hm]; exact .stop _ _
    · have haddr : bzMemOffset koff (shCode32 (bzBuf s.rd.data k)) = bzAddress s.rd.data koff := by
        rcases h with h | h
        · rw [hk h, (bzBuf_full s.rd.data).2.2.2.1]; rfl
        · cases koff with
          | none => exact absurd rfl h
          | some q => rfl
      rw [haddr, bzBuf_sects hmg, hm] at h0
      rw [hd] at h0 ⊢
      exact h0

/-! ## The other calls -/

theorem begun_guarded {ε : Type} (bs : List UInt8) (a : GuestAddr) (e₁ e₂ : ε) (m : Mem) :
    Begun (unmappedCut m) [(a.toNat, bs)] m (guardedWrite bs a e₁ e₂ m).2 := by
  unfold guardedWrite
  rw [LM.bind_def, checkedOffsetOr_eq]
  cases hc : m.checkedOffset a bs.length with
  | none => exact .stop _ _
  | some e =>
    simp only
    rw [writeSliceOr_eq]
    exact begun_writeSlice m bs a

theorem guarded_ok {ε : Type} {bs : List UInt8} {a : GuestAddr} {e₁ e₂ : ε} {m m' : Mem} {u : Unit}
    (h : guardedWrite bs a e₁ e₂ m = (.ok u, m')) : m' = m.store a.toNat bs := by
  unfold guardedWrite at h
  rw [LM.bind_def, checkedOffsetOr_eq] at h
  cases hc : m.checkedOffset a bs.length with
  | none => rw [hc] at h; cases h
  | some e =>
    rw [hc] at h
    simp only at h
    rcases writeSliceOr_cases bs a e₂ m with ⟨-, he⟩ | ⟨-, m1, -, he⟩ <;> rw [he] at h <;> cases h
    rfl

theorem begun_cmdline (a : GuestAddr) (c : Cmdline) (m : Mem) :
    Begun (unmappedCut m) [(a.toNat, (text c.bootArgs c.initArgs).utf8 ++ [0])] m (loadCmdline a c m).2 := by
  rcases loadCmdline_cases a c m with ⟨-, h'⟩ | ⟨bs, hbs, ⟨-, h'⟩ | ⟨-, h'⟩⟩
  · rw [h']; exact .stop _ _
  · rw [h']; exact .stop _ _
  · rw [h', writeSliceOr_eq, ← Cmdline.asCString_ok hbs]
    exact begun_writeSlice m _ a

theorem begun_pvh (p : BootParams) (m : Mem) :
    Begun (unmappedCut m) (pvhPieces p) m (pvhWrite p m).2 := by
  cases hb : p.sections with
  | none => unfold pvhWrite; rw [hb]; exact .stop _ _
  | some b =>
  cases ha : p.sectionsStart with
  | none => unfold pvhWrite; rw [hb, ha]; exact .stop _ _
  | some a =>
  have hp : pvhPieces p = [(a.toNat, b)] ++ ([(p.headerStart.toNat, p.header)] ++
      optPiece p.modules p.modulesStart) := by
    simp [pvhPieces, optPiece, hb, ha]
  rw [hp, pvhWrite_eq hb ha]
  have b1 := begun_guarded b a PvhError.memmapTablePastRamEnd .memmapTableSetup m
  rw [LM.bind_def]
  rcases hx : guardedWrite b a PvhError.memmapTablePastRamEnd .memmapTableSetup m with ⟨r, m₁⟩
  rw [hx] at b1
  cases r with
  | err e => exact b1.append _
  | panic => exact b1.append _
  | ok u =>
  obtain rfl := guarded_ok hx
  refine begun_after ?_
  show Begun _ _ (m.store a.toNat b) _
  generalize hM : m.store a.toNat b = M
  have hU : unmappedCut m = unmappedCut M := by rw [← hM]; rfl
  rw [hU]
  dsimp only
  have b2 := begun_guarded p.header p.headerStart PvhError.startInfoPastRamEnd .startInfoSetup M
  rw [LM.bind_def]
  rcases hx : guardedWrite p.header p.headerStart PvhError.startInfoPastRamEnd .startInfoSetup M with ⟨r, m₁⟩
  rw [hx] at b2
  cases r with
  | err e => exact b2.append _
  | panic => exact b2.append _
  | ok u =>
  obtain rfl := guarded_ok hx
  refine begun_after ?_
  show Begun _ _ (M.store p.headerStart.toNat p.header) _
  generalize hN : M.store p.headerStart.toNat p.header = N
  have hU : unmappedCut M = unmappedCut N := by rw [← hN]; rfl
  rw [hU]
  rcases pvhWriteModules_cases p N with ⟨q1, qe⟩ | ⟨q1, q2, qe⟩ | ⟨mb, ma, q1, q2, qe⟩
  · dsimp only; rw [qe]; exact .stop _ _
  · dsimp only; rw [qe]; exact .stop _ _
  · dsimp only; rw [qe, q1, q2, writeSliceOr_eq]
    exact begun_writeSlice N mb ma

end LinuxLoader
