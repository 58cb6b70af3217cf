import Verif.Props.Elf
import Verif.Props.Pe
import Verif.Props.BzImage

/-!
# How much a loader asks of its reader (C75)

The clock of the modelled reader counts the I/O operations (`seek`, `read_exact`, `read_volatile`,
`read_exact_volatile_from`) the loader makes, including the one that fails.
-/

namespace LinuxLoader
open Spec

/-- At most `n` I/O operations, on an image of `L` bytes. -/
def Cost {ε α : Type} (L : Nat) (x : LM LS ε α) (n : Nat) : Prop :=
  ∀ s, s.rd.data.length = L →
    (x s).2.rd.data.length = L ∧ (x s).2.rd.clock ≤ s.rd.clock + n

namespace Cost
variable {ε α β : Type} {L : Nat}

theorem ofRes (r : Res ε α) : Cost L (LM.ofRes r : LM LS ε α) 0 := fun _ h => ⟨h, Nat.le_refl _⟩
theorem pure (a : α) : Cost L (Pure.pure a : LM LS ε α) 0 := fun _ h => ⟨h, Nat.le_refl _⟩
theorem okOr (o : Option α) (e : ε) : Cost L (LM.okOr o e : LM LS ε α) 0 := by
  cases o <;> exact fun _ h => ⟨h, Nat.le_refl _⟩
theorem require (b : Bool) (e : ε) : Cost L (LM.require b e : LM LS ε Unit) 0 := by
  cases b <;> exact fun _ h => ⟨h, Nat.le_refl _⟩
theorem seekStart (p : Nat) (e : ε) : Cost L (LinuxLoader.seekStart p e) 1 := fun s h => by
  unfold LinuxLoader.seekStart; split <;> exact ⟨h, Nat.le_refl _⟩
theorem seekEnd (e : ε) : Cost L (LinuxLoader.seekEnd e) 1 := fun s h => by
  unfold LinuxLoader.seekEnd; split <;> exact ⟨h, Nat.le_refl _⟩
theorem seekCur (d : Int) (e : ε) : Cost L (LinuxLoader.seekCur d e) 1 := fun s h => by
  unfold LinuxLoader.seekCur; split <;> exact ⟨h, Nat.le_refl _⟩
theorem readExact (n : Nat) (e : ε) : Cost L (LinuxLoader.readExact n e) 1 := fun s h => by
  unfold LinuxLoader.readExact; split <;> exact ⟨h, Nat.le_refl _⟩
theorem readVolatile (n : Nat) (e : ε) : Cost L (LinuxLoader.readVolatile n e) 1 := fun s h => by
  unfold LinuxLoader.readVolatile; split <;> exact ⟨h, Nat.le_refl _⟩
theorem readIntoMem (a n : Nat) (e : ε) : Cost L (LinuxLoader.readIntoMem a n e) 1 := fun s h => by
  cases hw : scatterOf s with
  | some w => rw [readIntoMem_some hw]; exact ⟨h, Nat.le_refl _⟩
  | none =>
    rw [readIntoMem_none hw]
    unfold readPrefix; dsimp only; split <;> exact ⟨h, Nat.le_refl _⟩

theorem bind {x : LM LS ε α} {f : α → LM LS ε β} {n k : Nat} (hx : Cost L x n)
    (hf : ∀ a, Cost L (f a) k) : Cost L (x >>= f) (n + k) := fun s h => by
  obtain ⟨h1, h2⟩ := hx s h
  rw [LM.bind_def]
  rcases hxs : x s with ⟨r, s₁⟩
  rw [hxs] at h1 h2
  simp only at h1 h2
  cases r with
  | ok a =>
    obtain ⟨h3, h4⟩ := hf a s₁ h1
    exact ⟨h3, by show (f a s₁).2.rd.clock ≤ _; omega⟩
  | err e => exact ⟨h1, by simp only; omega⟩
  | panic => exact ⟨h1, by simp only; omega⟩

theorem mono {x : LM LS ε α} {n k : Nat} (hx : Cost L x n) (h : n ≤ k) : Cost L x k := fun s hs => by
  obtain ⟨h1, h2⟩ := hx s hs
  exact ⟨h1, by omega⟩

end Cost

/-! ## Notes -/

theorem readExact_ok_state {ε : Type} {n : Nat} {e : ε} {s s' : LS} {b : List UInt8}
    (h : readExact n e s = (.ok b, s')) :
    s'.rd.data = s.rd.data ∧ s'.rd.pos = s.rd.pos + n ∧ s'.rd.clock = s.rd.clock + 1 ∧
    b = (s.rd.data.drop s.rd.pos).take n ∧ (n ≠ 0 → s.rd.pos + n ≤ s.rd.data.length) := by
  unfold readExact at h
  split at h
  · cases h
  · rename_i hc
    cases h
    refine ⟨rfl, rfl, rfl, rfl, fun hn => ?_⟩
    simp only [not_or, Reader.rest, List.length_drop] at hc
    have := hc.2
    omega

theorem seekStart_ok_state {ε : Type} {p : Nat} {e : ε} {s s' : LS} {u : Unit}
    (h : seekStart p e s = (.ok u, s')) :
    s'.rd.data = s.rd.data ∧ s'.rd.pos = p ∧ s'.rd.clock = s.rd.clock + 1 := by
  unfold seekStart at h
  split at h
  · cases h
  · cases h; exact ⟨rfl, rfl, rfl⟩

theorem noteAdvance_ok {r n d v : Nat} (h : noteAdvance r n d = .ok v) :
    ∃ na da, alignUp n 4 = .ok na ∧ alignUp d 4 = .ok da ∧ v = r + 12 + na + da := by
  unfold noteAdvance at h
  cases hn : alignUp n 4 with
  | panic => rw [hn] at h; cases h
  | err e => rw [hn] at h; cases h
  | ok na =>
    cases hd : alignUp d 4 with
    | panic => rw [hn, hd] at h; cases h
    | err e => rw [hn, hd] at h; cases h
    | ok da =>
      rw [hn, hd] at h
      simp only [Res.bind_ok] at h
      refine ⟨na, da, rfl, rfl, ?_⟩
      split at h
      · cases h
      · rename_i hc
        have hs : ∀ {o : Option Nat} {e : LoadError}, okOr o e = .ok v → o = some v := by
          intro o e ho
          cases o with
          | none => cases ho
          | some a => cases ho; rfl
        have h := hs h
        have hadd : ∀ {a b c : Nat}, checkedAdd a b = some c → c = a + b := by
          intro a b c hc
          unfold checkedAdd at hc
          split at hc
          · cases hc; rfl
          · cases hc
        change ((checkedAdd r 12).bind fun r => (checkedAdd r na).bind fun r => checkedAdd r da) = some v
          at h
        obtain ⟨x, hx, h⟩ := Option.bind_eq_some_iff.1 h
        obtain ⟨y, hy, h⟩ := Option.bind_eq_some_iff.1 h
        rw [hadd h, hadd hy, hadd hx]

theorem notePvh_cost (L t n : Nat) : Cost L (notePvh t n) 1 := by
  unfold notePvh
  split
  · exact .bind (.readExact _ _) fun _ => .pure _
  · exact (Cost.pure _).mono (by omega)

/-- The note loop, started at the position of the next note: three operations for at least 16 bytes, or
two for at least 12. -/
theorem noteLoop_cost (ph : Phdr) (L : Nat) : ∀ fuel r s, s.rd.data.length = L →
    s.rd.pos = ph.offset + r →
    16 * (noteLoop ph fuel r s).2.rd.clock ≤ 16 * s.rd.clock + 16 + 3 * (L - s.rd.pos) ∧
    (noteLoop ph fuel r s).2.rd.data.length = L := by
  intro fuel
  induction fuel with
  | zero => intro r s hL _; exact ⟨by show 16 * s.rd.clock ≤ _; omega, hL⟩
  | succ fuel ih =>
    intro r s hL hp
    unfold noteLoop
    split
    · rw [LM.bind_def]
      have hc1 := Cost.readExact (L := L) 12 (LoadError.elf .readNoteHeader) s hL
      rcases hr : readExact 12 (LoadError.elf .readNoteHeader) s with ⟨res, s₁⟩
      rw [hr] at hc1
      simp only at hc1
      cases res with
      | err e => exact ⟨by simp only; omega, hc1.1⟩
      | panic => exact ⟨by simp only; omega, hc1.1⟩
      | ok b =>
        obtain ⟨-, hp1, hk1, -, hb1⟩ := readExact_ok_state hr
        have hb1 := hb1 (by omega)
        simp only
        rw [LM.bind_def]
        have hc2 := notePvh_cost L (leField b 8 4) (leField b 0 4) s₁ hc1.1
        rcases hv : notePvh (leField b 8 4) (leField b 0 4) s₁ with ⟨res, s₂⟩
        rw [hv] at hc2
        simp only at hc2
        cases res with
        | err e => exact ⟨by simp only; omega, hc2.1⟩
        | panic => exact ⟨by simp only; omega, hc2.1⟩
        | ok found =>
          simp only
          -- either no name was read, or it is 4 bytes inside the file
          have hcase : s₂.rd.clock = s₁.rd.clock ∨
              (leField b 0 4 = 4 ∧ s.rd.pos + 16 ≤ L) := by
            unfold notePvh at hv
            split at hv
            · rename_i ht
              right
              obtain ⟨nm, s₃, h1, h2⟩ := LM.bind_eq_ok.1 hv
              obtain ⟨hd, -, -, -, h3⟩ := readExact_ok_state h1
              have h3 := h3 (by omega)
              exact ⟨ht.2, by omega⟩
            · left; cases hv; rfl
          split
          · exact ⟨by show 16 * s₂.rd.clock ≤ _; omega, hc2.1⟩
          · rw [LM.bind_def, LM.ofRes_apply]
            cases hadv : noteAdvance r (leField b 0 4) (leField b 4 4) with
            | err e => exact ⟨by simp only; omega, hc2.1⟩
            | panic => exact ⟨by simp only; omega, hc2.1⟩
            | ok rs =>
              obtain ⟨na, da, hna, -, hrs⟩ := noteAdvance_ok hadv
              simp only
              rw [LM.bind_def, LM.ofRes_apply]
              cases hpl : (plainAdd ph.offset rs : Res LoadError Nat) with
              | err e => exact ⟨by simp only; omega, hc2.1⟩
              | panic => exact ⟨by simp only; omega, hc2.1⟩
              | ok p =>
                have hpv : p = ph.offset + rs := by
                  unfold plainAdd at hpl
                  split at hpl
                  · cases hpl; rfl
                  · cases hpl
                simp only
                rw [LM.bind_def]
                have hc3 := Cost.seekStart (L := L) p (LoadError.elf .seekNoteHeader) s₂ hc2.1
                rcases hsk : seekStart p (LoadError.elf .seekNoteHeader) s₂ with ⟨res, s₃⟩
                rw [hsk] at hc3
                simp only at hc3
                cases res with
                | err e => exact ⟨by simp only; omega, hc3.1⟩
                | panic => exact ⟨by simp only; omega, hc3.1⟩
                | ok u =>
                  obtain ⟨-, hp3, hk3⟩ := seekStart_ok_state hsk
                  obtain ⟨h1, h2⟩ := ih rs s₃ hc3.1 (by omega)
                  simp only
                  refine ⟨?_, h2⟩
                  rcases hcase with hcase | ⟨hn4, hin⟩
                  · omega
                  · have : na = 4 := by
                      rw [hn4, alignUp_4 (by omega)] at hna
                      cases hna; rfl
                    omega
    · exact ⟨by show 16 * s.rd.clock ≤ _; omega, hL⟩

theorem noteTail_cost (L : Nat) (r : Option NoteLoop) : Cost L (noteTail r) 2 := by
  cases r with
  | none => exact (Cost.pure _).mono (by omega)
  | some n =>
    exact (Cost.bind (.ofRes _) fun _ => .bind (.seekCur _ _) fun _ => .bind (.require _ _) fun _ =>
      .bind (.readExact _ _) fun _ => .pure _).mono (by omega)

theorem parseNote_cost (L : Nat) (ph : Phdr) : Cost L (parseNote ph) (4 + 3 * L / 16) := fun s hL => by
  rw [parseNote_eq, LM.bind_def]
  have hc := Cost.seekStart (L := L) ph.offset (LoadError.elf .seekNoteHeader) s hL
  rcases hs : seekStart ph.offset (LoadError.elf .seekNoteHeader) s with ⟨res, s₁⟩
  rw [hs] at hc
  simp only at hc
  cases res with
  | err e => exact ⟨hc.1, by simp only; omega⟩
  | panic => exact ⟨hc.1, by simp only; omega⟩
  | ok u =>
    obtain ⟨-, hp, hk⟩ := seekStart_ok_state hs
    obtain ⟨h1, h2⟩ := noteLoop_cost ph L (ph.filesz + 1) 0 s₁ hc.1 (by omega)
    simp only
    rw [LM.bind_def]
    rcases hl : noteLoop ph (ph.filesz + 1) 0 s₁ with ⟨res, s₂⟩
    rw [hl] at h1 h2
    simp only at h1 h2
    cases res with
    | err e => exact ⟨h2, by simp only; omega⟩
    | panic => exact ⟨h2, by simp only; omega⟩
    | ok r =>
      obtain ⟨h3, h4⟩ := noteTail_cost L r s₂ h2
      exact ⟨h3, by simp only; omega⟩

/-! ## Segments -/

theorem loadSegment_cost (L : Nat) (koff : Option GuestAddr) (ph : Phdr) (kend : Nat) :
    Cost L (loadSegment koff ph kend) 2 :=
  (Cost.bind (.seekStart _ _) fun _ => .bind (.okOr _ _) fun _ => .bind (.readIntoMem _ _ _) fun _ =>
    .bind (.okOr _ _) fun _ => .pure _).mono (by omega)

theorem loadSegments_cost (L : Nat) (koff : Option GuestAddr) : ∀ phs kend cap,
    Cost L (loadSegments koff phs kend cap) (phs.length * (4 + 3 * L / 16)) := by
  intro phs
  induction phs with
  | nil => intro kend cap; exact (Cost.pure _).mono (Nat.zero_le _)
  | cons h t ih =>
    intro kend cap
    unfold loadSegments
    rw [List.length_cons, Nat.succ_mul]
    split
    · split
      · cases koff with
        | some k => exact (ih _ _).mono (by omega)
        | none =>
          exact (Cost.bind (parseNote_cost L h) fun _ => ih _ _).mono (by omega)
      · exact (ih _ _).mono (by omega)
    · exact (Cost.bind (loadSegment_cost L _ _ _) fun _ => ih _ _).mono (by omega)

theorem readPhdrs_cost (L : Nat) : ∀ n s, s.rd.data.length = L →
    (readPhdrs n s).2.rd.data.length = L ∧
    (readPhdrs n s).2.rd.clock ≤ s.rd.clock + min n ((L - s.rd.pos) / 56 + 1) ∧
    ∀ l, (readPhdrs n s).1 = .ok l → l.length = n ∧ (n ≠ 0 → s.rd.pos + 56 * n ≤ L) := by
  intro n
  induction n with
  | zero =>
    intro s hL
    exact ⟨hL, by show s.rd.clock ≤ _; omega, fun l hl => by
      cases (show Res.ok [] = Res.ok l from hl); exact ⟨rfl, fun h => absurd rfl h⟩⟩
  | succ n ih =>
    intro s hL
    unfold readPhdrs
    rw [LM.bind_def]
    have hc := Cost.readExact (L := L) 56 (LoadError.elf .readProgramHeader) s hL
    rcases hr : readExact 56 (LoadError.elf .readProgramHeader) s with ⟨res, s₁⟩
    rw [hr] at hc
    simp only at hc
    cases res with
    | err e => exact ⟨hc.1, by simp only; omega, fun l hl => nomatch hl⟩
    | panic => exact ⟨hc.1, by simp only; omega, fun l hl => nomatch hl⟩
    | ok b =>
      obtain ⟨-, hp, hk, -, hb⟩ := readExact_ok_state hr
      have hb := hb (by omega)
      obtain ⟨h1, h2, h3⟩ := ih s₁ hc.1
      simp only
      rw [LM.bind_def]
      rcases hq : readPhdrs n s₁ with ⟨res, s₂⟩
      rw [hq] at h1 h2 h3
      simp only at h1 h2 h3
      cases res with
      | err e => exact ⟨h1, by simp only; omega, fun l hl => nomatch hl⟩
      | panic => exact ⟨h1, by simp only; omega, fun l hl => nomatch hl⟩
      | ok l =>
        obtain ⟨h4, h5⟩ := h3 l rfl
        refine ⟨h1, by show s₂.rd.clock ≤ _; omega, fun l' hl' => ?_⟩
        cases (show Res.ok (Phdr.ofBytes b :: l) = Res.ok l' from hl')
        refine ⟨by simp [h4], fun _ => ?_⟩
        by_cases hn : n = 0
        · subst hn; omega
        · have := h5 hn; omega

/-! ## C75 -/

/-- **C75.** Loading an ELF image of `L` bytes takes at most `4 + n * (5 + 3 L / 16)` I/O operations,
where `n` is the number of program headers the file can hold, at most the number given in the ELF
header. This holds for every image, valid or not, every behaviour of the reader, and whether the load
succeeds or not. -/
theorem C75_elf_work (koff highmem : Option GuestAddr) (s : LS) :
    (elfLoad koff highmem s).2.rd.clock ≤ s.rd.clock + 4 +
      min (elfPhnum s.rd.data) (s.rd.data.length / 56) * (5 + 3 * s.rd.data.length / 16) := by
  obtain ⟨L, hL⟩ : ∃ L, s.rd.data.length = L := ⟨_, rfl⟩
  rw [hL]
  generalize hB : 5 + 3 * L / 16 = B
  unfold elfLoad
  rw [LM.bind_def]
  have hc := Cost.seekStart (L := L) 0 (LoadError.elf .seekElfStart) s hL
  rcases hs : seekStart 0 (LoadError.elf .seekElfStart) s with ⟨res, s₁⟩
  rw [hs] at hc
  simp only at hc
  cases res with
  | err e => simp only; omega
  | panic => simp only; omega
  | ok u =>
    obtain ⟨hd1, hp1, hk1⟩ := seekStart_ok_state hs
    simp only
    rw [LM.bind_def]
    have hc2 := Cost.readExact (L := L) 64 (LoadError.elf .readElfHeader) s₁ hc.1
    rcases hr : readExact 64 (LoadError.elf .readElfHeader) s₁ with ⟨res, s₂⟩
    rw [hr] at hc2
    simp only at hc2
    cases res with
    | err e => simp only; omega
    | panic => simp only; omega
    | ok eh =>
      obtain ⟨hd2, hp2, hk2, heh, hb2⟩ := readExact_ok_state hr
      have hn : ehPhnum eh = elfPhnum s.rd.data := by
        rw [heh, hp1, hd1, List.drop_zero]
        unfold ehPhnum elfPhnum
        exact leField_take _ (by omega)
      simp only
      rw [LM.bind_def, LM.ofRes_apply]
      cases validateHeader eh with
      | err e => simp only; omega
      | panic => simp only; omega
      | ok u =>
        simp only
        have h0 : ∀ {α : Type} {x : LM LS LoadError α} {f : α → LM LS LoadError LoadResult} {t : LS}
            {N : Nat}, (x t).2 = t → t.rd.clock ≤ N → (∀ a, (f a t).2.rd.clock ≤ N) →
            ((x >>= f) t).2.rd.clock ≤ N := by
          intro α x f t N hx ht hf
          rw [LM.bind_def]
          rcases hxt : x t with ⟨res, t'⟩
          rw [hxt] at hx
          simp only at hx
          subst hx
          cases res with
          | ok a => exact hf a
          | err e => exact ht
          | panic => exact ht
        have he1 : ∀ t, (checkEntry highmem (ehEntry eh) t).2 = t := by
          intro t
          cases highmem with
          | none => rfl
          | some h =>
            show (LM.require _ _ t).2 = t
            unfold LM.require
            split <;> rfl
        have he2 : ∀ t, (elfKernelLoad koff (ehEntry eh) t).2 = t := by
          intro t
          cases koff with
          | none => rfl
          | some k =>
            show (LM.okOr _ _ t).2 = t
            cases checkedAdd k.toNat (ehEntry eh) <;> rfl
        refine h0 (he1 _) (by omega) fun _ => h0 (he2 _) (by omega) fun kload => ?_
        rw [LM.bind_def]
        have hc3 := Cost.seekStart (L := L) (ehPhoff eh) (LoadError.elf .seekProgramHeader) s₂ hc2.1
        rcases hs3 : seekStart (ehPhoff eh) (LoadError.elf .seekProgramHeader) s₂ with ⟨res, s₃⟩
        rw [hs3] at hc3
        simp only at hc3
        cases res with
        | err e => simp only; omega
        | panic => simp only; omega
        | ok u =>
          simp only
          rw [LM.bind_def]
          obtain ⟨g1, g2, g3⟩ := readPhdrs_cost L (ehPhnum eh) s₃ hc3.1
          rw [hn] at g1 g2 g3 ⊢
          have hmul : min (elfPhnum s.rd.data) (L / 56) ≤ min (elfPhnum s.rd.data) (L / 56) * B :=
            Nat.le_mul_of_pos_right _ (by omega)
          have hdiv : (L - s₃.rd.pos) / 56 ≤ L / 56 := Nat.div_le_div_right (by omega)
          rcases hq : readPhdrs (elfPhnum s.rd.data) s₃ with ⟨res, s₄⟩
          rw [hq] at g1 g2 g3
          simp only at g1 g2 g3
          cases res with
          | err e => simp only; omega
          | panic => simp only; omega
          | ok phs =>
            obtain ⟨g4, g5⟩ := g3 phs rfl
            obtain ⟨k1, k2⟩ := loadSegments_cost L koff phs 0 .ignored s₄ g1
            have hfit : elfPhnum s.rd.data ≤ L / 56 := by
              by_cases hz : elfPhnum s.rd.data = 0
              · omega
              · have := g5 hz; omega
            rw [Nat.min_eq_left hfit]
            rw [g4] at k2
            have hb : elfPhnum s.rd.data * B = elfPhnum s.rd.data * (4 + 3 * L / 16) +
                elfPhnum s.rd.data := by
              rw [← hB, show 5 + 3 * L / 16 = (4 + 3 * L / 16) + 1 by omega, Nat.mul_succ]
            simp only
            rw [LM.bind_def]
            rcases hls : loadSegments koff phs 0 .ignored s₄ with ⟨res, s₅⟩
            rw [hls] at k2
            simp only at k2
            cases res with
            | ok r => show s₅.rd.clock ≤ _; omega
            | err e => simp only; omega
            | panic => simp only; omega

/-- **C75** for bzImage, PE and device tree blobs: a constant number of I/O operations. -/
theorem C75_other_work (arch : PeArch) (koff highmem : Option GuestAddr) (a : GuestAddr) (s : LS) :
    (bzLoad koff highmem s).2.rd.clock ≤ s.rd.clock + 5 ∧
    (peLoad arch koff highmem s).2.rd.clock ≤ s.rd.clock + 5 ∧
    (loadDtb a s).2.rd.clock ≤ s.rd.clock + 3 := by
  have c1 : ∀ size h, Cost s.rd.data.length (bzRest koff highmem size h) 2 := by
    intro size h
    refine (Cost.bind (.require _ _) fun _ => .bind (.require _ _) fun _ => .bind (.okOr _ _) fun _ =>
      .bind (.okOr _ _) fun _ => .bind (n := 0) ?_ fun _ => .bind (.seekStart _ _) fun _ =>
      .bind (.readIntoMem _ _ _) fun _ => .bind (.okOr _ _) fun _ => .pure _).mono (by omega)
    cases highmem with
    | none => exact .pure _
    | some h => exact .require _ _
  refine ⟨((Cost.bind (.seekEnd _) fun size => .bind (.seekStart _ _) fun _ =>
      .bind (.readVolatile _ _) fun h => c1 size h) s rfl).2, ?_, ?_⟩
  · refine ((Cost.bind (n := 1) (k := 4) (.seekEnd _) fun size => .bind (n := 1) (k := 3) (.seekStart _ _)
      fun _ => .bind (n := 1) (k := 2) (.readExact _ _) fun h => .bind (n := 0) (k := 2) (.require _ _) fun _ =>
      .bind (n := 0) (k := 2) ?_ fun _ => .bind (n := 0) (k := 2) (.okOr _ _) fun _ =>
      .bind (n := 1) (k := 1) (.seekStart _ _) fun _ => .bind (n := 1) (k := 0) (.readIntoMem _ _ _) fun _ =>
      .bind (n := 0) (k := 0) (.okOr _ _) fun _ => .pure _) s rfl).2
    cases koff with
    | none => exact .pure _
    | some k => exact .require _ _
  · exact ((Cost.bind (n := 1) (k := 2) (.seekEnd _) fun size => .bind (n := 0) (k := 2) (.require _ _)
      fun _ => .bind (n := 1) (k := 1) (.seekStart _ _) fun _ => .readIntoMem _ _ _) s rfl).2

/-- The demo images: 4 program headers, of which one is a note segment with two notes (the second is the
PVH note) and two have file contents; 336 bytes. -/
example : (elfLoad none none demoState).2.rd.clock = 18 ∧ elfPhnum demoState.rd.data = 4 ∧
    demoState.rd.data.length = 336 ∧ (bzLoad none (some 0x30) bzState).2.rd.clock = 5 := by decide +kernel

end LinuxLoader
