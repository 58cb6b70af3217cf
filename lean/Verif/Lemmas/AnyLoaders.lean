import Verif.Lemmas.AnyReader
import Verif.Lemmas.Pe

/-! # The loaders with readers that may do anything: bzImage, PE, device trees -/

namespace LinuxLoader
open Spec

variable {R : AnyReader}

/-- Nothing written, and no result. -/
theorem StepTo.data_eq {P : RdOp → Prop} {s t : AnyState} (h : StepTo (fun _ => False) P s t) (x : Nat) :
    t.mem.data x = s.mem.data x := Decidable.byContradiction fun hn => (h.frame x hn).1

/-- What a run of a loader that writes once may end with. -/
structure RunEnds {α : Type} (s t : AnyState) (r : Res LoadError α) (T : List (RdOp × Answer) → Nat → Prop)
    (Post : List (RdOp × Answer) → α → Prop) : Prop where
  noPanic : r ≠ .panic
  layout : SameLayout s.mem t.mem
  frame : ∀ x, t.mem.data x ≠ s.mem.data x → s.mem.mapped x = true ∧ T t.log x
  result : ∀ v, r = .ok v → Post t.log v

theorem RunEnds.error {α : Type} {s t : AnyState} {e : LoadError} {T : List (RdOp × Answer) → Nat → Prop}
    {Post : List (RdOp × Answer) → α → Prop} (h : t.mem = s.mem) : RunEnds s t (.err e : Res LoadError α) T Post :=
  ⟨(fun h => nomatch h), by rw [h]; exact ⟨rfl, rfl⟩, fun x hx => absurd (by rw [h]) hx, fun _ h => nomatch h⟩

theorem seek_mem {ε : Type} (o : RdOp) (e : ε) (s : AnyState) : ((anySeek R o e : LM AnyState ε Unit) s).2.mem = s.mem := by
  unfold anySeek; split <;> rfl

theorem seekEnd_mem {ε : Type} (e : ε) (s : AnyState) : ((anySeekEnd R e : LM AnyState ε Nat) s).2.mem = s.mem := by
  unfold anySeekEnd; split <;> rfl

theorem read_mem {ε : Type} (o : RdOp) (n : Nat) (e : ε) (s : AnyState) :
    ((anyRead R o n e : LM AnyState ε (List UInt8)) s).2.mem = s.mem := by
  unfold anyRead; split <;> rfl

theorem mem_of {ε α : Type} {x : LM AnyState ε α} {s s₁ : AnyState} {r : Res ε α} (h : (x s).2.mem = s.mem)
    (hx : x s = (r, s₁)) : s₁.mem = s.mem := by rw [← h, hx]

theorem okOr_mem {ε α : Type} (o : Option α) (e : ε) (s : AnyState) : ((LM.okOr o e : LM AnyState ε α) s).2 = s := by
  cases o <;> rfl

theorem require_mem {ε : Type} (b : Bool) (e : ε) (s : AnyState) : ((LM.require b e : LM AnyState ε Unit) s).2 = s := by
  cases b <;> rfl

theorem require_any {ε : Type} {b : Bool} {e : ε} {s s₁ : AnyState} {u : Unit}
    (h : (LM.require b e : LM AnyState ε Unit) s = (.ok u, s₁)) : b = true ∧ s₁ = s := by
  cases b
  · cases h
  · cases h; exact ⟨rfl, rfl⟩

theorem not_panic_of {σ ε α : Type} {x : LM σ ε α} {s s₁ : σ} (h : NoPanic x s) (hx : x s = (.panic, s₁)) : False :=
  h (by rw [hx])

/-- The transfer and the sum after it. -/
theorem ends_tail {α : Type} {T : List (RdOp × Answer) → Nat → Prop} {Post : List (RdOp × Answer) → α → Prop}
    {s s₁ : AnyState} (hm : s₁.mem = s.mem) (a n : Nat) (e e' : LoadError) (f : Nat → α)
    (hT : ∀ ans x, InRange a n x → T (s₁.log ++ [(.readIntoMem a n, ans)]) x)
    (hP : Mapped s.mem a n → a + n < U64 → Post (s₁.log ++ [(.readIntoMem a n, .done)]) (f (a + n))) :
    RunEnds s ((anyTransfer R a n e >>= fun _ => LM.okOr (checkedAdd a n) e' >>= fun v => pure (f v)) s₁).2
      ((anyTransfer R a n e >>= fun _ => LM.okOr (checkedAdd a n) e' >>= fun v => pure (f v)) s₁).1 T Post := by
  have hst := Steps.transfer (R := R) (T := InRange a n) (P := fun _ => True) a n e trivial (fun _ h => h) s₁
  have hlog : ∃ ans, ((anyTransfer R a n e : LM AnyState LoadError Unit) s₁).2.log = s₁.log ++ [(.readIntoMem a n, ans)] := by
    unfold anyTransfer
    simp only
    split
    · exact ⟨_, rfl⟩
    · exact ⟨_, rfl⟩
  have hlay : SameLayout s.mem ((anyTransfer R a n e : LM AnyState LoadError Unit) s₁).2.mem := by
    rw [← hm]; exact hst.layout
  have hfr : ∀ x, ((anyTransfer R a n e : LM AnyState LoadError Unit) s₁).2.mem.data x ≠ s.mem.data x →
      s.mem.mapped x = true ∧ T ((anyTransfer R a n e : LM AnyState LoadError Unit) s₁).2.log x := by
    intro x hx
    rw [← hm] at hx
    obtain ⟨h1, h2⟩ := hst.frame x hx
    obtain ⟨ans, hl⟩ := hlog
    rw [hl, ← hm]
    exact ⟨h2, hT ans x h1⟩
  refine LM.post_bind (Q := fun r t => RunEnds s t r T Post) (fun e s₂ h => ?_) (fun s₂ h => ?_) fun u s₂ h => ?_
  · rw [h] at hlay hfr
    exact ⟨(fun h => nomatch h), hlay, hfr, fun _ h => nomatch h⟩
  · exact (not_panic_of (anyTransfer_noPanic _ _ _ _) h).elim
  · rw [h] at hlay hfr
    obtain ⟨hacc, hs2⟩ := anyTransfer_ok h
    unfold checkedAdd
    split
    · rename_i hlt
      refine ⟨(fun h => nomatch h), hlay, hfr, fun v hv => ?_⟩
      have hv' : f (a + n) = v := by
        exact Res.ok.inj hv
      subst hv'
      have hl2 : s₂.log = s₁.log ++ [(.readIntoMem a n, .done)] := by rw [hs2]; rfl
      show Post s₂.log _
      rw [hl2]
      exact hP (by rw [← hm]; exact hacc.1) hlt
    · exact ⟨(fun h => nomatch h), hlay, hfr, fun _ h => nomatch h⟩

/-! ## bzImage -/

theorem checkedSub_some' {a b c : Nat} (h : checkedSub a b = some c) : b ≤ a ∧ c = a - b := by
  unfold checkedSub at h
  split at h
  · rename_i hc; cases h; exact ⟨hc, rfl⟩
  · cases h

theorem leField_bzWithHeader (h : List UInt8) (o n : Nat) :
    leField (bzWithHeader h) (0x1f1 + o) n = leField h o n := by
  unfold leField bzWithHeader
  generalize 0x1f1 = k
  rw [List.drop_append, List.drop_of_length_le (by rw [List.length_replicate]; omega), List.length_replicate,
    Nat.add_sub_cancel_left, List.nil_append]

theorem bzWithHeader_magic (h : List UInt8) : shMagic h = 0x53726448 ↔ BzMagicOk (bzWithHeader h) := by
  rw [← bzMagic_iff]
  have := leField_bzWithHeader h 0x11 4
  unfold shMagic
  rw [← this]

theorem bzWithHeader_setup (h : List UInt8) : bzSetupSize (shSetupSects h) = some (bzSetupBytes (bzWithHeader h)) := by
  rw [bzSetupSize_eq (shSetupSects h) (leField_lt h 0 1)]
  have : shSetupSects h = bzSetupSects (bzWithHeader h) := (leField_bzWithHeader h 0 1).symm
  rw [this]
  rfl

theorem bzWithHeader_code32 (h : List UInt8) : shCode32 h = bzCode32 (bzWithHeader h) :=
  (leField_bzWithHeader h 0x23 4).symm

theorem bzWithHeader_address (h : List UInt8) (koff : Option GuestAddr) :
    bzMemOffset koff (shCode32 h) = bzAddress (bzWithHeader h) koff := by
  rw [bzWithHeader_code32]
  generalize bzWithHeader h = img
  cases koff <;> rfl

/-- The record of `BzImage::load` up to the transfer. -/
def bzLog (size : Nat) (h : List UInt8) (setup : Nat) : List (RdOp × Answer) :=
  [(.seekEnd, .size size), (.seekStart 0x1f1, .done), (.readVolatile 123, .bytes h), (.seekStart setup, .done)]

theorem bz_ends (koff highmem : Option GuestAddr) (m : Mem) :
    RunEnds ⟨m, []⟩ (G.bzLoad (anyIo R) koff highmem ⟨m, []⟩).2 (G.bzLoad (anyIo R) koff highmem ⟨m, []⟩).1
      (fun log x => ∃ size h, deliveredSizes log = [size] ∧ deliveredVolatile 123 log = [h] ∧ h.length = 123 ∧
        size < U64 ∧ BzChecked highmem size (bzWithHeader h) ∧
        InRange (bzAddress (bzWithHeader h) koff) (size - bzSetupBytes (bzWithHeader h)) x)
      (fun log r => ∃ size h, deliveredSizes log = [size] ∧ deliveredVolatile 123 log = [h] ∧ h.length = 123 ∧
        size < U64 ∧ BzChecked highmem size (bzWithHeader h) ∧
        Mapped m (bzAddress (bzWithHeader h) koff) (size - bzSetupBytes (bzWithHeader h)) ∧
        bzAddress (bzWithHeader h) koff + (size - bzSetupBytes (bzWithHeader h)) < U64 ∧
        r = ⟨bzAddress (bzWithHeader h) koff,
          bzAddress (bzWithHeader h) koff + (size - bzSetupBytes (bzWithHeader h)),
          some (setCode32 h (bzAddress (bzWithHeader h) koff)), .ignored⟩) := by
  unfold G.bzLoad
  refine LM.post_bind (Q := fun r t => RunEnds _ t r _ _) (fun e s₁ h => .error (mem_of (seekEnd_mem _ _) h))
    (fun s₁ h => (not_panic_of (anySeekEnd_noPanic _ _) h).elim) fun size s₁ h1 => ?_
  obtain ⟨hsz, hs1⟩ := anySeekEnd_ok h1
  refine LM.post_bind (Q := fun r t => RunEnds _ t r _ _) (fun e s₂ h => .error ?_)
    (fun s₁ h => (not_panic_of (anySeek_noPanic _ _ _) h).elim) fun _ s₂ h2 => ?_
  · rw [mem_of (seek_mem _ _ _) h, hs1]; rfl
  obtain ⟨-, hs2⟩ := anySeek_ok h2
  refine LM.post_bind (Q := fun r t => RunEnds _ t r _ _) (fun e s₃ h => .error ?_)
    (fun s₁ h => (not_panic_of (anyRead_noPanic _ _ _ _) h).elim) fun h s₃ h3 => ?_
  · rw [mem_of (read_mem _ _ _ _) h, hs2, hs1]; rfl
  obtain ⟨hl, hs3⟩ := anyRead_ok h3
  have hm3 : s₃.mem = m := by rw [hs3, hs2, hs1]; rfl
  have hlog3 : s₃.log = [(.seekEnd, .size size), (.seekStart 0x1f1, .done), (.readVolatile 123, .bytes h)] := by
    rw [hs3, hs2, hs1]; rfl
  clear hs3 hs2 hs1 h1 h2 h3
  unfold G.bzRest
  refine LM.post_bind (Q := fun r t => RunEnds _ t r _ _) (fun e s₄ h => .error ?_)
    (fun s₁ h => (not_panic_of (.require _ _) h).elim) fun _ s₄ h4 => ?_
  · rw [mem_of (by rw [require_mem]) h, hm3]
  obtain ⟨hmag, rfl⟩ := require_any h4
  refine LM.post_bind (Q := fun r t => RunEnds _ t r _ _) (fun e s₄ h => .error ?_)
    (fun s₁ h => (not_panic_of (.require _ _) h).elim) fun _ s₅ h5 => ?_
  · rw [mem_of (by rw [require_mem]) h, hm3]
  obtain ⟨hver, rfl⟩ := require_any h5
  rw [bzWithHeader_setup]
  refine LM.post_bind (Q := fun r t => RunEnds _ t r _ _) (fun e s₄ h => nomatch h)
    (fun s₁ h => nomatch h) fun setup s₆ h6 => ?_
  obtain ⟨hset, rfl⟩ := okOr_any h6
  have hset : bzSetupBytes (bzWithHeader h) = setup := Option.some.inj hset
  refine LM.post_bind (Q := fun r t => RunEnds _ t r _ _) (fun e s₄ h => .error ?_)
    (fun s₁ h => (not_panic_of (.okOr _ _) h).elim) fun ksize s₆ h7 => ?_
  · rw [mem_of (by rw [okOr_mem]) h, hm3]
  obtain ⟨hk, rfl⟩ := okOr_any h7
  obtain ⟨hle, rfl⟩ := checkedSub_some' hk
  have hhi : ∀ r s₅ s₆, G.bzCheckHighmem (anyIo R) highmem (shCode32 h) s₅ = (r, s₆) → s₆ = s₅ ∧ r ≠ .panic ∧
      (∀ u, r = .ok u → ∀ q, highmem = some q → q.toNat ≤ bzCode32 (bzWithHeader h)) := by
    intro r s₅ s₆ hh
    unfold G.bzCheckHighmem at hh
    cases highmem with
    | none => cases hh; exact ⟨rfl, (fun h => nomatch h), fun _ _ _ h => nomatch h⟩
    | some q =>
      dsimp only at hh
      rw [bzWithHeader_code32] at hh
      by_cases hq : q.toNat ≤ bzCode32 (bzWithHeader h)
      · rw [decide_eq_true hq] at hh
        cases hh
        exact ⟨rfl, (fun h => nomatch h), fun _ _ q' hq' => by cases hq'; exact hq⟩
      · rw [decide_eq_false hq] at hh
        cases hh
        exact ⟨rfl, (fun h => nomatch h), fun _ h => nomatch h⟩
  refine LM.post_bind (Q := fun r t => RunEnds _ t r _ _) (fun e s₄ h => .error ?_)
    (fun s₁ h => ((hhi _ _ _ h).2.1 rfl).elim) fun _ s₆ h8 => ?_
  · rw [(hhi _ _ _ h).1, hm3]
  obtain ⟨rfl, -, hhm⟩ := hhi _ _ _ h8
  have hhm := hhm _ rfl
  refine LM.post_bind (Q := fun r t => RunEnds _ t r _ _) (fun e s₄ h => .error ?_)
    (fun s₁ h => (not_panic_of (anySeek_noPanic _ _ _) h).elim) fun _ s₇ h9 => ?_
  · rw [mem_of (seek_mem _ _ _) h, hm3]
  obtain ⟨-, hs7⟩ := anySeek_ok h9
  have hm7 : s₇.mem = (⟨m, []⟩ : AnyState).mem := by rw [hs7]; exact hm3
  have hlog7 : s₇.log = bzLog size h (setup) := by rw [hs7]; simp [AnyState.add, hlog3, bzLog]
  have hchk : BzChecked highmem size (bzWithHeader h) := by
    refine ⟨(bzWithHeader_magic h).1 (by simpa using hmag), ?_, ?_, by rw [hset]; exact hle, hhm⟩
    · have : shVersion h = bzVersion (bzWithHeader h) := (leField_bzWithHeader h 0x15 2).symm
      simp only [Bool.not_eq_true', Bool.or_eq_false_iff, decide_eq_false_iff_not] at hver
      rw [← this]; omega
    · have : shLoadflags h = bzLoadflags (bzWithHeader h) := (leField_bzWithHeader h 0x20 1).symm
      simp only [Bool.not_eq_true', Bool.or_eq_false_iff, decide_eq_false_iff_not, Nat.and_one_is_mod,
        beq_eq_false_iff_ne] at hver
      rw [← this]; omega
  rw [bzWithHeader_address]
  have hszs : ∀ e, deliveredSizes (s₇.log ++ [(.readIntoMem (bzAddress (bzWithHeader h) koff)
      (size - setup), e)]) = [size] := fun e => by rw [hlog7]; rfl
  have hhs : ∀ e, deliveredVolatile 123 (s₇.log ++ [(.readIntoMem (bzAddress (bzWithHeader h) koff)
      (size - setup), e)]) = [h] := fun e => by rw [hlog7]; rfl
  exact ends_tail hm7 _ _ _ _ (fun v => (⟨bzAddress (bzWithHeader h) koff, v,
    some (setCode32 h (bzAddress (bzWithHeader h) koff)), .ignored⟩ : LoadResult))
    (fun ans x hx => ⟨size, h, hszs ans, hhs ans, hl, hsz, hchk, by rw [hset]; exact hx⟩)
    (fun hmap hlt => ⟨size, h, hszs _, hhs _, hl, hsz, hchk, by rw [hset]; exact hmap, by rw [hset]; exact hlt, by rw [hset]⟩)

/-! ## PE -/

theorem pe_ends (arch : PeArch) (koff highmem : Option GuestAddr) (m : Mem) :
    RunEnds ⟨m, []⟩ (G.peLoad (anyIo R) arch koff highmem ⟨m, []⟩).2 (G.peLoad (anyIo R) arch koff highmem ⟨m, []⟩).1
      (fun log x => ∃ size h, deliveredSizes log = [size] ∧ delivered 64 log = [h] ∧ h.length = 64 ∧
        size < U64 ∧ PeChecked arch koff h ∧ InRange (peAddress arch h koff) size x)
      (fun log r => ∃ size h, deliveredSizes log = [size] ∧ delivered 64 log = [h] ∧ h.length = 64 ∧
        size < U64 ∧ PeChecked arch koff h ∧ Mapped m (peAddress arch h koff) size ∧
        peAddress arch h koff + size < U64 ∧
        r = ⟨peAddress arch h koff, peAddress arch h koff + size, none, .ignored⟩) := by
  unfold G.peLoad
  refine LM.post_bind (Q := fun r t => RunEnds _ t r _ _) (fun e s₁ h => .error (mem_of (seekEnd_mem _ _) h))
    (fun s₁ h => (not_panic_of (anySeekEnd_noPanic _ _) h).elim) fun size s₁ h1 => ?_
  obtain ⟨hsz, hs1⟩ := anySeekEnd_ok h1
  refine LM.post_bind (Q := fun r t => RunEnds _ t r _ _) (fun e s₂ h => .error ?_)
    (fun s₁ h => (not_panic_of (anySeek_noPanic _ _ _) h).elim) fun _ s₂ h2 => ?_
  · rw [mem_of (seek_mem _ _ _) h, hs1]; rfl
  obtain ⟨-, hs2⟩ := anySeek_ok h2
  refine LM.post_bind (Q := fun r t => RunEnds _ t r _ _) (fun e s₃ h => .error ?_)
    (fun s₁ h => (not_panic_of (anyRead_noPanic _ _ _ _) h).elim) fun h s₃ h3 => ?_
  · rw [mem_of (read_mem _ _ _ _) h, hs2, hs1]; rfl
  obtain ⟨hl, hs3⟩ := anyRead_ok h3
  have hm3 : s₃.mem = m := by rw [hs3, hs2, hs1]; rfl
  have hlog3 : s₃.log = [(.seekEnd, .size size), (.seekStart 0, .done), (.readExact 64, .bytes h)] := by
    rw [hs3, hs2, hs1]; rfl
  clear hs3 hs2 hs1 h1 h2 h3
  have ht : h.take 64 = h := List.take_of_length_le (by omega)
  refine LM.post_bind (Q := fun r t => RunEnds _ t r _ _) (fun e s₄ h => .error ?_)
    (fun s₁ h => (not_panic_of (.require _ _) h).elim) fun _ s₄ h4 => ?_
  · rw [mem_of (by rw [require_mem]) h, hm3]
  obtain ⟨hmag, rfl⟩ := require_any h4
  have hmag : PeMagicOk arch h := by
    rw [← peMagic_iff, ht]; simpa using hmag
  have hal : ∀ r s₅ s₆, G.peCheckAlign (anyIo R) koff s₅ = (r, s₆) → s₆ = s₅ ∧ r ≠ .panic ∧
      (∀ u, r = .ok u → ∀ k, koff = some k → k.toNat % 0x200000 = 0) := by
    intro r s₅ s₆ hh
    unfold G.peCheckAlign at hh
    cases koff with
    | none => cases hh; exact ⟨rfl, (fun h => nomatch h), fun _ _ _ h => nomatch h⟩
    | some q =>
      dsimp only at hh
      by_cases hq : q.toNat % 0x200000 = 0
      · rw [hq] at hh
        cases hh
        exact ⟨rfl, (fun h => nomatch h), fun _ _ q' hq' => by cases hq'; exact hq⟩
      · rw [show (q.toNat % 0x200000 == 0) = false by simpa using hq] at hh
        cases hh
        exact ⟨rfl, (fun h => nomatch h), fun _ h => nomatch h⟩
  refine LM.post_bind (Q := fun r t => RunEnds _ t r _ _) (fun e s₄ h => .error ?_)
    (fun s₁ h => ((hal _ _ _ h).2.1 rfl).elim) fun _ s₆ h8 => ?_
  · rw [(hal _ _ _ h).1, hm3]
  obtain ⟨rfl, -, hka⟩ := hal _ _ _ h8
  have hka := hka _ rfl
  have hoff : peTextOffset arch h = peOffset arch h := by
    have := peTextOffset_eq arch h
    rwa [ht] at this
  have hbase : peBase koff = koffBase koff := by cases koff <;> rfl
  rw [hoff, hbase]
  refine LM.post_bind (Q := fun r t => RunEnds _ t r _ _) (fun e s₄ h => .error ?_)
    (fun s₁ h => (not_panic_of (.okOr _ _) h).elim) fun a s₇ h5 => ?_
  · rw [mem_of (by rw [okOr_mem]) h, hm3]
  obtain ⟨ha, rfl⟩ := okOr_any h5
  obtain ⟨hlt, rfl⟩ := checkedAdd_some' ha
  refine LM.post_bind (Q := fun r t => RunEnds _ t r _ _) (fun e s₄ h => .error ?_)
    (fun s₁ h => (not_panic_of (anySeek_noPanic _ _ _) h).elim) fun _ s₇ h9 => ?_
  · rw [mem_of (seek_mem _ _ _) h, hm3]
  obtain ⟨-, hs7⟩ := anySeek_ok h9
  have hm7 : s₇.mem = (⟨m, []⟩ : AnyState).mem := by rw [hs7]; exact hm3
  have hlog7 : s₇.log = [(.seekEnd, .size size), (.seekStart 0, .done), (.readExact 64, .bytes h),
      (.seekStart 0, .done)] := by rw [hs7]; simp [AnyState.add, hlog3]
  have hchk : PeChecked arch koff h := ⟨hmag, hka, hlt⟩
  have hszs : ∀ e, deliveredSizes (s₇.log ++ [(.readIntoMem (koffBase koff + peOffset arch h) size, e)]) = [size] :=
    fun e => by rw [hlog7]; rfl
  have hhs : ∀ e, delivered 64 (s₇.log ++ [(.readIntoMem (koffBase koff + peOffset arch h) size, e)]) = [h] :=
    fun e => by rw [hlog7]; rfl
  exact ends_tail hm7 _ _ _ _ (fun v => (⟨peAddress arch h koff, v, none, .ignored⟩ : LoadResult))
    (fun ans x hx => ⟨size, h, hszs ans, hhs ans, hl, hsz, hchk, hx⟩)
    (fun hmap hlt => ⟨size, h, hszs _, hhs _, hl, hsz, hchk, hmap, hlt, rfl⟩)

/-! ## Device trees -/

theorem dtb_ends (a : GuestAddr) (m : Mem) :
    RunEnds ⟨m, []⟩ (G.loadDtb (anyIo R) a ⟨m, []⟩).2 (G.loadDtb (anyIo R) a ⟨m, []⟩).1
      (fun log x => ∃ size, deliveredSizes log = [size] ∧ size ≤ 0x200000 ∧ InRange a.toNat size x)
      (fun log _ => ∃ size, deliveredSizes log = [size] ∧ size ≤ 0x200000 ∧ Mapped m a.toNat size) := by
  unfold G.loadDtb
  refine LM.post_bind (Q := fun r t => RunEnds _ t r _ _) (fun e s₁ h => .error (mem_of (seekEnd_mem _ _) h))
    (fun s₁ h => (not_panic_of (anySeekEnd_noPanic _ _) h).elim) fun size s₁ h1 => ?_
  obtain ⟨hsz, hs1⟩ := anySeekEnd_ok h1
  have hm1 : s₁.mem = m := by rw [hs1]; rfl
  refine LM.post_bind (Q := fun r t => RunEnds _ t r _ _) (fun e s₄ h => .error ?_)
    (fun s₁ h => (not_panic_of (.require _ _) h).elim) fun _ s₂ h4 => ?_
  · rw [mem_of (by rw [require_mem]) h, hm1]
  obtain ⟨hle, rfl⟩ := require_any h4
  have hle : size ≤ 0x200000 := by simpa using hle
  refine LM.post_bind (Q := fun r t => RunEnds _ t r _ _) (fun e s₂ h => .error ?_)
    (fun s₁ h => (not_panic_of (anySeek_noPanic _ _ _) h).elim) fun _ s₃ h2 => ?_
  · rw [mem_of (seek_mem _ _ _) h, hs1]; rfl
  obtain ⟨-, hs3⟩ := anySeek_ok h2
  have hm3 : s₃.mem = m := by rw [hs3]; exact hm1
  have hlog : s₃.log = [(.seekEnd, .size size), (.seekStart 0, .done)] := by rw [hs3, hs1]; rfl
  have hst := Steps.transfer (R := R) (T := InRange a.toNat size) (P := fun _ => True) a.toNat size
    (.pe .readDtbImage : LoadError) trivial (fun _ h => h) s₃
  show RunEnds _ ((anyTransfer R a.toNat size (.pe .readDtbImage : LoadError)) s₃).2
    ((anyTransfer R a.toNat size (.pe .readDtbImage : LoadError)) s₃).1 _ _
  have hsize : deliveredSizes ((anyTransfer R a.toNat size (.pe .readDtbImage : LoadError)) s₃).2.log = [size] := by
    unfold anyTransfer
    simp only
    split
    · simp only [AnyState.add, hlog]; rfl
    · simp only [AnyState.add, hlog]; rfl
  refine ⟨anyTransfer_noPanic _ _ _ _, ?_, fun x hx => ?_, fun v hv => ⟨size, hsize, hle, ?_⟩⟩
  · rw [show (⟨m, []⟩ : AnyState).mem = s₃.mem from hm3.symm]; exact hst.layout
  · have := hst.frame x (by rw [hm3]; exact hx)
    exact ⟨by rw [← hm3]; exact this.2, size, hsize, hle, this.1⟩
  · have : (anyTransfer R a.toNat size (.pe .readDtbImage : LoadError)) s₃ = (.ok v, _) := Prod.ext hv rfl
    have := (anyTransfer_ok this).1.1
    rwa [hm3] at this

end LinuxLoader
