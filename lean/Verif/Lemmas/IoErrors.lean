import Verif.Spec.IoErrors
import Verif.Lemmas.AnyLoaders
import Verif.Lemmas.AnyElf

/-! # Failed requests are reported, and only they -/

namespace LinuxLoader
open Spec

/-! ## Composition -/

section
variable {Q A ε α β σ : Type}

/-- No request failed. -/
def CleanLog (failed : A) (l : List (Q × A)) : Prop := ∀ p ∈ l, p.2 ≠ failed

/-- `e` names no request. -/
def Unnamed (names : ε → List (Q × A) → Q → Prop) (e : ε) : Prop := ¬ ∃ l o, names e l o

/-- Either no request failed and the outcome does not claim so, or the last one did and is named. -/
def RepR (failed : A) (names : ε → List (Q × A) → Q → Prop) (r : Res ε α) (l : List (Q × A)) : Prop :=
  (CleanLog failed l ∧ ∀ e, r = .err e → Unnamed names e) ∨
  ∃ before o e, l = before ++ [(o, failed)] ∧ CleanLog failed before ∧ r = .err e ∧ names e before o

/-- The run of `x` from `s`. -/
def RepAt (lg : σ → List (Q × A)) (failed : A) (names : ε → List (Q × A) → Q → Prop) (x : LM σ ε α) (s : σ) : Prop :=
  RepR failed names (x s).1 (lg (x s).2)

variable {failed : A} {names : ε → List (Q × A) → Q → Prop} {lg : σ → List (Q × A)}

theorem RepR.reports {r : Res ε α} {l : List (Q × A)} (h : RepR failed names r l) : Reports failed names r l := by
  rcases h with ⟨hc, he⟩ | ⟨bef, o, e, rfl, hc, rfl, hn⟩
  · refine ⟨fun before o after hl => ?_, fun e h1 h2 => absurd h2 (he e h1)⟩
    exact absurd rfl (hc (o, failed) (by rw [hl]; simp))
  · refine ⟨fun before o' after hl => ?_, fun e' h1 h2 => ⟨bef, o, rfl⟩⟩
    rcases List.append_eq_append_iff.1 hl with ⟨z, h1, h2⟩ | ⟨z, h1, h2⟩
    · cases z with
      | nil =>
        simp only [List.nil_append, List.cons.injEq, Prod.mk.injEq, and_true] at h2
        obtain ⟨rfl, rfl⟩ := h2
        simp only [List.append_nil] at h1
        subst h1
        exact ⟨rfl, e, rfl, hn⟩
      | cons y z => simp at h2
    · cases z with
      | nil =>
        simp only [List.nil_append, List.cons.injEq, Prod.mk.injEq, and_true] at h2
        obtain ⟨rfl, h2⟩ := h2
        simp only [List.append_nil] at h1
        subst h1
        exact ⟨h2, e, rfl, hn⟩
      | cons y z =>
        simp only [List.cons_append, List.cons.injEq] at h2
        refine absurd rfl (hc (o', failed) ?_)
        rw [h1, ← h2.1]; simp

namespace RepAt
variable {s : σ}

theorem clean {x : LM σ ε α} (h : RepAt lg failed names x s) {t : σ} (hnot : ∀ e, (x s).1 ≠ .err e)
    (ht : (x s).2 = t) : CleanLog failed (lg t) := by
  rcases h with ⟨hc, -⟩ | ⟨_, _, e, -, -, he, -⟩
  · rw [ht] at hc; exact hc
  · exact absurd he (hnot e)

theorem bind {x : LM σ ε α} {f : α → LM σ ε β} (hx : RepAt lg failed names x s)
    (hf : ∀ a t, x s = (.ok a, t) → CleanLog failed (lg t) → RepAt lg failed names (f a) t) :
    RepAt lg failed names (x >>= f) s := by
  unfold RepAt
  refine LM.post_bind (Q := fun r t => RepR failed names r (lg t)) (fun e s₁ h => ?_) (fun s₁ h => ?_)
    fun a s₁ h => ?_
  · have := hx
    unfold RepAt at this
    rw [h] at this
    rcases this with ⟨hc, he⟩ | ⟨bef, o, e', h1, h2, h3, h4⟩
    · exact .inl ⟨hc, fun e' h' => he e' (by cases h'; rfl)⟩
    · exact .inr ⟨bef, o, e', h1, h2, by cases h3; rfl, h4⟩
  · have := hx
    unfold RepAt at this
    rw [h] at this
    rcases this with ⟨hc, he⟩ | ⟨bef, o, e', h1, h2, h3, h4⟩
    · exact .inl ⟨hc, fun e' h' => nomatch h'⟩
    · cases h3
  · exact hf a s₁ h (hx.clean (fun e he => by rw [h] at he; cases he) (by rw [h]))

theorem ofRes {r : Res ε α} (hs : CleanLog failed (lg s)) (h : ∀ e, r = .err e → Unnamed names e) :
    RepAt lg failed names (LM.ofRes r : LM σ ε α) s := .inl ⟨hs, h⟩

theorem pure (hs : CleanLog failed (lg s)) (a : α) : RepAt lg failed names (Pure.pure a : LM σ ε α) s :=
  .inl ⟨hs, fun _ h => nomatch h⟩

theorem okOr (hs : CleanLog failed (lg s)) (o : Option α) {e : ε} (h : Unnamed names e) :
    RepAt lg failed names (LM.okOr o e : LM σ ε α) s := by
  cases o with
  | none => exact .inl ⟨hs, fun e' he => by cases he; exact h⟩
  | some a => exact .inl ⟨hs, fun e h => nomatch h⟩

theorem require (hs : CleanLog failed (lg s)) (b : Bool) {e : ε} (h : Unnamed names e) :
    RepAt lg failed names (LM.require b e : LM σ ε Unit) s := by
  cases b with
  | false => exact .inl ⟨hs, fun e' he => by cases he; exact h⟩
  | true => exact .inl ⟨hs, fun e h => nomatch h⟩

end RepAt

theorem CleanLog.append {l k : List (Q × A)} (h : CleanLog failed l) (h' : CleanLog failed k) : CleanLog failed (l ++ k) :=
  fun p hp => (List.mem_append.1 hp).elim (h p) (h' p)

theorem CleanLog.one {o : Q} {a : A} (h : a ≠ failed) : CleanLog failed [(o, a)] := by
  intro p hp
  rw [List.mem_singleton.1 hp]
  exact h

end

/-! ## Readers -/

section
variable {R : AnyReader} {ε : Type} {names : ε → List (RdOp × Answer) → RdOp → Prop} {s : AnyState}

/-- For readers. -/
abbrev RdRep {α : Type} (names : ε → List (RdOp × Answer) → RdOp → Prop) (x : LM AnyState ε α) (s : AnyState) : Prop :=
  RepAt AnyState.log .failed names x s

abbrev RdClean (s : AnyState) : Prop := CleanLog (Q := RdOp) Answer.failed s.log

theorem RdRep.seek (hs : RdClean s) {o : RdOp} {e : ε} (hn : names e s.log o) : RdRep names (anySeek R o e) s := by
  unfold RdRep RepAt anySeek
  split
  · exact .inr ⟨_, o, e, rfl, hs, rfl, hn⟩
  · exact .inl ⟨hs.append (.one fun h => nomatch h), fun e h => nomatch h⟩

theorem RdRep.seekEnd (hs : RdClean s) {e : ε} (hn : names e s.log .seekEnd) : RdRep names (anySeekEnd R e) s := by
  unfold RdRep RepAt anySeekEnd
  split
  · exact .inr ⟨_, _, e, rfl, hs, rfl, hn⟩
  · exact .inl ⟨hs.append (.one fun h => nomatch h), fun e h => nomatch h⟩

theorem RdRep.read (hs : RdClean s) {o : RdOp} {n : Nat} {e : ε} (hn : names e s.log o) :
    RdRep names (anyRead R o n e) s := by
  unfold RdRep RepAt anyRead
  split
  · exact .inr ⟨_, _, e, rfl, hs, rfl, hn⟩
  · exact .inl ⟨hs.append (.one fun h => nomatch h), fun e h => nomatch h⟩

theorem RdRep.transfer (hs : RdClean s) {a n : Nat} {e : ε} (hn : names e s.log (.readIntoMem a n)) :
    RdRep names (anyTransfer R a n e) s := by
  unfold RdRep RepAt anyTransfer
  dsimp only
  split
  · exact .inl ⟨hs.append (.one fun h => nomatch h), fun e h => nomatch h⟩
  · exact .inr ⟨_, _, e, rfl, hs, rfl, hn⟩

end

/-! ## ELF -/

variable {R : AnyReader}

section
variable {koff : Option GuestAddr}

theorem elf_unnamed {e : LoadError} (h : ∀ l o, ¬ ElfNames koff e l o) : Unnamed (ElfNames koff) e :=
  fun ⟨l, o, hn⟩ => h l o hn

/-- `h` has been delivered and is a note segment, and notes are looked for. -/
def NoteAt (koff : Option GuestAddr) (h : Phdr) (s : AnyState) : Prop :=
  koff = none ∧ h ∈ deliveredPhdrs s.log ∧ h.IsNote

theorem NoteAt.mono {h : Phdr} {s t : AnyState} (hh : NoteAt koff h s) {P : RdOp → Prop} {T : Nat → Prop}
    (ht : StepTo T P s t) : NoteAt koff h t := by
  obtain ⟨l, hl, -⟩ := ht.log
  refine ⟨hh.1, ?_, hh.2.2⟩
  rw [hl, deliveredPhdrs_append]
  exact List.mem_append_left _ hh.2.1

theorem step_of {ε α : Type} {T : Nat → Prop} {P : RdOp → Prop} {x : LM AnyState ε α} (h : Steps T P x) {s t : AnyState}
    {r : Res ε α} (hx : x s = (r, t)) : StepTo T P s t := by
  have := h s
  rw [hx] at this
  exact this

theorem rep_notePvh {ph : Phdr} {s : AnyState} (hs : RdClean s) (hn : NoteAt koff ph s) (t n : Nat) :
    RdRep (ElfNames koff) (G.notePvh (anyIo R) t n) s := by
  unfold G.notePvh
  split
  · refine .bind (RdRep.read hs ⟨hn.1, ⟨ph, hn.2.1, hn.2.2⟩, .inr rfl⟩) fun b t h ht => .pure ht _
  · exact .pure hs _

theorem noteAdvance_unnamed {r n d : Nat} {e : LoadError} (h : noteAdvance r n d = .err e) :
    Unnamed (ElfNames koff) e := by
  have hup : ∀ a b e, alignUp a b = .err e → e = .elf .align := by
    intro a b e he
    unfold alignUp at he
    split at he
    · cases he; rfl
    · simp only at he
      split at he
      · cases he
      · unfold plainAdd at he
        split at he <;> cases he
  have : e = .elf .align ∨ e = .elf .overflow := by
    unfold noteAdvance at h
    rcases hx : alignUp n 4 with a | e' | _
    · rw [hx] at h
      rcases hy : alignUp d 4 with b | e' | _
      · rw [hy] at h
        simp only [Res.bind] at h
        split at h
        · cases h; exact .inr rfl
        · unfold okOr at h
          split at h
          · cases h
          · cases h; exact .inr rfl
      · rw [hy] at h; cases h; exact .inl (hup _ _ _ hy)
      · rw [hy] at h; cases h
    · rw [hx] at h; cases h; exact .inl (hup _ _ _ hx)
    · rw [hx] at h; cases h
  rcases this with rfl | rfl
  · exact elf_unnamed fun _ _ h => h
  · exact elf_unnamed fun _ _ h => h

theorem plainAdd_unnamed {a b : Nat} {e : LoadError} (h : plainAdd a b = .err e) : Unnamed (ElfNames koff) e := by
  unfold plainAdd at h
  split at h <;> cases h

theorem rep_noteLoop {ph : Phdr} : ∀ (fuel r : Nat) {s : AnyState}, RdClean s → NoteAt koff ph s →
    RdRep (ElfNames koff) (G.noteLoop (anyIo R) ph fuel r) s
  | 0, _, s, hs, _ => .ofRes hs fun _ h => nomatch h
  | fuel + 1, r, s, hs, hn => by
    unfold G.noteLoop
    split
    · refine .bind (RdRep.read hs ⟨hn.1, ⟨ph, hn.2.1, hn.2.2⟩, .inl rfl⟩) fun b t h ht => ?_
      have hn := hn.mono (step_of (Steps.read (T := fun _ => True) (P := fun _ => True) _ _ _ trivial) h)
      refine .bind (rep_notePvh ht hn _ _) fun f t' h' ht' => ?_
      have hn := hn.mono (step_of (steps_notePvh (T := fun _ => True) (P := fun _ => True) trivial _ _) h')
      cases f with
      | true => exact .pure ht' _
      | false =>
        refine .bind (.ofRes ht' fun e he => noteAdvance_unnamed he) fun rs t₂ h₂ ht₂ => ?_
        cases (Prod.mk.inj h₂).2
        refine .bind (.ofRes ht₂ fun e he => plainAdd_unnamed he) fun p t₃ h₃ ht₃ => ?_
        have hp := (Prod.mk.inj h₃).1
        cases (Prod.mk.inj h₃).2
        have hp : p = ph.offset + rs := by
          unfold plainAdd at hp
          split at hp
          · exact (Res.ok.inj hp).symm
          · cases hp
        subst hp
        refine .bind (RdRep.seek ht₃ ⟨hn.1, ph, hn.2.1, hn.2.2, .inl ⟨_, rfl⟩⟩) fun _ t₄ h₄ ht₄ => ?_
        have hn := hn.mono (step_of (Steps.seek (T := fun _ => True) (P := fun _ => True) _ _ trivial) h₄)
        exact rep_noteLoop fuel rs ht₄ hn
    · exact .pure hs _

theorem rep_parseNote {ph : Phdr} {s : AnyState} (hs : RdClean s) (hn : NoteAt koff ph s) :
    RdRep (ElfNames koff) (G.parseNote (anyIo R) ph) s := by
  unfold G.parseNote
  refine .bind (RdRep.seek hs ⟨hn.1, ph, hn.2.1, hn.2.2, .inl ⟨0, rfl⟩⟩) fun _ t h ht => ?_
  have hn := hn.mono (step_of (Steps.seek (T := fun _ => True) (P := fun _ => True) _ _ trivial) h)
  refine .bind (rep_noteLoop _ _ ht hn) fun r t₁ h₁ ht₁ => ?_
  have hn := hn.mono (step_of (steps_noteLoop (T := fun _ => True) (P := fun _ => True) trivial trivial (fun _ => trivial) _ _ _) h₁)
  cases r with
  | none => exact .pure ht₁ _
  | some n =>
    have h4 := noteLoop_namesz h₁
    dsimp only
    rw [h4, show alignUp 4 4 = .ok 4 from by decide]
    refine .bind (.ofRes ht₁ fun e he => nomatch he) fun na t₂ h₂ ht₂ => ?_
    cases h₂
    refine .bind (RdRep.seek ht₂ ⟨hn.1, ph, hn.2.1, hn.2.2, .inr rfl⟩) fun _ t₃ h₃ ht₃ => ?_
    have hn := hn.mono (step_of (Steps.seek (T := fun _ => True) (P := fun _ => True) _ _ trivial) h₃)
    refine .bind (.require ht₃ _ (elf_unnamed fun _ _ h => h)) fun _ t₄ h₄ ht₄ => ?_
    obtain ⟨-, rfl⟩ := require_any h₄
    exact .bind (RdRep.read ht₄ ⟨hn.1, ⟨ph, hn.2.1, hn.2.2⟩, .inr rfl⟩) fun _ _ _ ht => .pure ht _

theorem rep_loadSegment {ph : Phdr} {kend : Nat} {s : AnyState} (hs : RdClean s) (hm : ph ∈ deliveredPhdrs s.log)
    (hl : ph.Loadable) : RdRep (ElfNames koff) (G.loadSegment (anyIo R) koff ph kend) s := by
  unfold G.loadSegment
  refine .bind (RdRep.seek hs ⟨ph, hm, hl, rfl⟩) fun _ t h ht => ?_
  obtain ⟨-, rfl⟩ := anySeek_ok h
  refine .bind (.okOr ht _ (elf_unnamed fun _ _ h => h)) fun a t₁ h₁ ht₁ => ?_
  obtain ⟨ha, rfl⟩ := okOr_any h₁
  refine .bind (RdRep.transfer ht₁ ⟨ph, ?_, hl, by rw [segmentAddr_some ha]⟩) fun _ t₂ h₂ ht₂ => ?_
  · show ph ∈ deliveredPhdrs (s.log ++ _)
    rw [deliveredPhdrs_append]; exact List.mem_append_left _ hm
  exact .bind (.okOr ht₂ _ (elf_unnamed fun _ _ h => h)) fun _ _ _ ht => .pure ht _

theorem rep_loadSegments : ∀ (phs : List Phdr) (kend : Nat) (cap : PvhCap) {s : AnyState}, RdClean s →
    (∀ h ∈ phs, h ∈ deliveredPhdrs s.log) → RdRep (ElfNames koff) (G.loadSegments (anyIo R) koff phs kend cap) s
  | [], _, _, s, hs, _ => .pure hs _
  | ph :: phs, kend, cap, s, hs, hm => by
    have hph := hm ph (List.mem_cons_self ..)
    have hrest : ∀ kend cap (t : AnyState), RdClean t → (∃ l, t.log = s.log ++ l) →
        RdRep (ElfNames koff) (G.loadSegments (anyIo R) koff phs kend cap) t := by
      intro kend cap t ht ⟨l, hl⟩
      refine rep_loadSegments phs kend cap ht fun h hh => ?_
      rw [hl, deliveredPhdrs_append]
      exact List.mem_append_left _ (hm h (List.mem_cons_of_mem _ hh))
    unfold G.loadSegments
    split
    · rename_i hc
      split
      · rename_i hnote
        cases koff with
        | some k => exact hrest _ _ s hs ⟨[], by simp⟩
        | none =>
          refine .bind (rep_parseNote hs ⟨rfl, hph, hnote⟩) fun c t h ht => hrest _ _ t ht ?_
          obtain ⟨l, hl, -⟩ := (step_of (steps_parseNote (T := fun _ => True) (P := fun _ => True) trivial trivial
            (fun _ => trivial) (fun _ => trivial) ph) h).log
          exact ⟨l, hl⟩
      · exact hrest _ _ s hs ⟨[], by simp⟩
    · rename_i hc
      have hl : ph.Loadable := ⟨Classical.byContradiction fun h => hc (.inl h), fun h => hc (.inr h)⟩
      refine .bind (rep_loadSegment hs hph hl) fun e t h ht => hrest _ _ t ht ?_
      obtain ⟨l, hl, -⟩ := segment_log h
      exact ⟨l, hl⟩

theorem rep_readPhdrs {eh : List UInt8} : ∀ (n : Nat) {s : AnyState}, RdClean s → delivered 64 s.log = [eh] →
    (deliveredPhdrs s.log).length + n = elfPhnum eh → RdRep (ElfNames koff) (G.readPhdrs (anyIo R) n) s
  | 0, s, hs, _, _ => .pure hs _
  | n + 1, s, hs, he, hn => by
    unfold G.readPhdrs
    refine .bind (RdRep.read hs ⟨eh, he, by omega, rfl⟩) fun b t h ht => ?_
    obtain ⟨-, rfl⟩ := anyRead_ok h
    refine .bind (rep_readPhdrs (eh := eh) n ht ?_ ?_) fun rest t₁ h₁ ht₁ => .pure ht₁ _
    · show delivered 64 (s.log ++ _) = _
      rw [delivered_append, he]; rfl
    · show (deliveredPhdrs (s.log ++ _)).length + n = _
      rw [deliveredPhdrs_append, List.length_append]
      show (deliveredPhdrs s.log).length + 1 + n = _
      omega

theorem validateHeader_unnamed {b : List UInt8} {e : LoadError} (h : validateHeader b = .err e) :
    Unnamed (ElfNames koff) e := by
  have : e = .elf .invalidElfMagicNumber ∨ e = .elf .bigEndianElfOnLittle ∨ e = .elf .invalidProgramHeaderSize ∨
      e = .elf .invalidProgramHeaderOffset := by
    unfold validateHeader at h
    split at h
    · cases h; exact .inl rfl
    · split at h
      · cases h; exact .inr (.inl rfl)
      · split at h
        · cases h; exact .inr (.inr (.inl rfl))
        · split at h
          · cases h; exact .inr (.inr (.inr rfl))
          · cases h
  rcases this with rfl | rfl | rfl | rfl <;> exact elf_unnamed fun _ _ h => h

theorem rep_elfLoad (highmem : Option GuestAddr) (m : Mem) :
    RdRep (ElfNames koff) (G.elfLoad (anyIo R) koff highmem) ⟨m, []⟩ := by
  have h0 : RdClean ⟨m, []⟩ := fun _ h => nomatch h
  unfold G.elfLoad
  refine .bind (RdRep.seek h0 ⟨rfl, rfl⟩) fun _ t h ht => ?_
  obtain ⟨-, rfl⟩ := anySeek_ok h
  refine .bind (RdRep.read ht ⟨rfl, rfl⟩) fun eh t₁ h₁ ht₁ => ?_
  obtain ⟨-, rfl⟩ := anyRead_ok h₁
  refine .bind (.ofRes ht₁ fun e he => validateHeader_unnamed he) fun _ t₂ h₂ ht₂ => ?_
  have ht2 : t₂ = _ := (Prod.mk.inj h₂).2.symm
  have hce : RdRep (ElfNames koff) (G.checkEntry (anyIo R) highmem (ehEntry eh)) t₂ := by
    unfold G.checkEntry
    cases highmem with
    | none => exact .pure ht₂ _
    | some q => exact .require ht₂ _ (elf_unnamed fun _ _ h => h)
  refine .bind hce fun _ t₃ h₃ ht₃ => ?_
  have : t₃ = t₂ := by
    unfold G.checkEntry at h₃
    cases highmem with
    | none => exact (Prod.mk.inj h₃).2.symm
    | some q => exact (require_any h₃).2
  subst this
  have hkl : RdRep (ElfNames koff) (G.elfKernelLoad (anyIo R) koff (ehEntry eh)) t₃ := by
    unfold G.elfKernelLoad
    cases koff with
    | none => exact .pure ht₃ _
    | some q => exact .okOr ht₃ _ (elf_unnamed fun _ _ h => h)
  refine .bind hkl fun _ t₄ h₄ ht₄ => ?_
  have : t₄ = t₃ := by
    unfold G.elfKernelLoad at h₄
    cases koff with
    | none => exact (Prod.mk.inj h₄).2.symm
    | some q => exact (okOr_any h₄).2
  subst this
  have ht4 : t₄ = ((⟨m, []⟩ : AnyState).add (.seekStart 0) .done).add (.readExact 64) (.bytes eh) := ht2
  refine .bind (RdRep.seek ht₄ ⟨by rw [ht4]; rfl, eh, by rw [ht4]; rfl, rfl⟩) fun _ t₅ h₅ ht₅ => ?_
  obtain ⟨-, hs5⟩ := anySeek_ok h₅
  refine .bind (rep_readPhdrs (eh := eh) _ ht₅ (by rw [hs5, ht4]; rfl) (by rw [hs5, ht4]; exact Nat.zero_add _))
    fun phs t₆ h₆ ht₆ => ?_
  obtain ⟨l, hl, hd, -, -⟩ := readPhdrs_delivered _ _ _ _ h₆
  refine .bind (rep_loadSegments phs 0 .ignored ht₆ fun h hh => ?_) fun r t₇ h₇ ht₇ => .pure ht₇ _
  rw [hl, deliveredPhdrs_append, hd]
  exact List.mem_append_right _ hh

end

/-! ## bzImage, PE, device trees -/

theorem rep_bzLoad (koff highmem : Option GuestAddr) (m : Mem) :
    RdRep (BzNames koff) (G.bzLoad (anyIo R) koff highmem) ⟨m, []⟩ := by
  have h0 : RdClean ⟨m, []⟩ := fun _ h => nomatch h
  have hun : ∀ {e}, (∀ l o, ¬ BzNames koff e l o) → Unnamed (BzNames koff) e := fun h ⟨l, o, hn⟩ => h l o hn
  unfold G.bzLoad
  refine .bind (RdRep.seekEnd h0 ⟨rfl, rfl⟩) fun size t h ht => ?_
  obtain ⟨-, rfl⟩ := anySeekEnd_ok h
  refine .bind (RdRep.seek ht ⟨rfl, rfl⟩) fun _ t₁ h₁ ht₁ => ?_
  obtain ⟨-, rfl⟩ := anySeek_ok h₁
  refine .bind (RdRep.read ht₁ ⟨rfl, rfl⟩) fun hd t₂ h₂ ht₂ => ?_
  obtain ⟨-, hs₂⟩ := anyRead_ok h₂
  have hlog : t₂.log = [(.seekEnd, .size size), (.seekStart 0x1f1, .done), (.readVolatile 123, .bytes hd)] := by
    rw [hs₂]; rfl
  clear hs₂ h₂
  unfold G.bzRest
  refine .bind (.require ht₂ _ (hun fun _ _ h => h)) fun _ t₃ h₃ ht₃ => ?_
  obtain ⟨-, rfl⟩ := require_any h₃
  refine .bind (.require ht₃ _ (hun fun _ _ h => h)) fun _ t₃ h₃ ht₃ => ?_
  obtain ⟨-, rfl⟩ := require_any h₃
  rw [bzWithHeader_setup]
  refine .bind (.okOr ht₃ _ (hun fun _ _ h => h)) fun setup t₃ h₃ ht₃ => ?_
  obtain ⟨hset, rfl⟩ := okOr_any h₃
  have hset : bzSetupBytes (bzWithHeader hd) = setup := Option.some.inj hset
  refine .bind (.okOr ht₃ _ (hun fun _ _ h => h)) fun ksize t₃ h₃ ht₃ => ?_
  obtain ⟨hk, rfl⟩ := okOr_any h₃
  obtain ⟨-, rfl⟩ := checkedSub_some' hk
  have hhm : RdRep (BzNames koff) (G.bzCheckHighmem (anyIo R) highmem (shCode32 hd)) t₃ := by
    unfold G.bzCheckHighmem
    cases highmem with
    | none => exact .pure ht₃ _
    | some q => exact .require ht₃ _ (hun fun _ _ h => h)
  refine .bind hhm fun _ t₄ h₄ ht₄ => ?_
  have : t₄ = t₃ := by
    unfold G.bzCheckHighmem at h₄
    cases highmem with
    | none => exact (Prod.mk.inj h₄).2.symm
    | some q => exact (require_any h₄).2
  subst this
  refine .bind (RdRep.seek ht₄ ⟨by rw [hlog]; rfl, hd, by rw [hlog]; rfl, by rw [hset]⟩) fun _ t₅ h₅ ht₅ => ?_
  obtain ⟨-, rfl⟩ := anySeek_ok h₅
  rw [bzWithHeader_address]
  refine .bind (RdRep.transfer ht₅ ?_) fun _ t₆ h₆ ht₆ =>
    .bind (.okOr ht₆ _ (hun fun _ _ h => h)) fun _ _ _ ht => .pure ht _
  have hl5 : (t₄.add (.seekStart setup) .done).log = bzLog size hd setup := by
    show t₄.log ++ _ = _
    rw [hlog]; rfl
  refine ⟨by rw [hl5]; rfl, size, hd, by rw [hl5]; rfl, by rw [hl5]; rfl, by rw [hset]⟩

theorem rep_peLoad (arch : PeArch) (koff highmem : Option GuestAddr) (m : Mem) :
    RdRep (PeNames arch koff) (G.peLoad (anyIo R) arch koff highmem) ⟨m, []⟩ := by
  have h0 : RdClean ⟨m, []⟩ := fun _ h => nomatch h
  have hun : ∀ {e}, (∀ l o, ¬ PeNames arch koff e l o) → Unnamed (PeNames arch koff) e := fun h ⟨l, o, hn⟩ => h l o hn
  unfold G.peLoad
  refine .bind (RdRep.seekEnd h0 ⟨rfl, rfl⟩) fun size t h ht => ?_
  obtain ⟨-, rfl⟩ := anySeekEnd_ok h
  refine .bind (RdRep.seek ht ⟨.inl rfl, rfl⟩) fun _ t₁ h₁ ht₁ => ?_
  obtain ⟨-, rfl⟩ := anySeek_ok h₁
  refine .bind (RdRep.read ht₁ ⟨rfl, rfl⟩) fun hd t₂ h₂ ht₂ => ?_
  obtain ⟨hl, hs₂⟩ := anyRead_ok h₂
  have hlog : t₂.log = [(.seekEnd, .size size), (.seekStart 0, .done), (.readExact 64, .bytes hd)] := by
    rw [hs₂]; rfl
  clear hs₂ h₂
  refine .bind (.require ht₂ _ (hun fun _ _ h => h)) fun _ t₃ h₃ ht₃ => ?_
  obtain ⟨-, rfl⟩ := require_any h₃
  have hca : RdRep (PeNames arch koff) (G.peCheckAlign (anyIo R) koff) t₃ := by
    unfold G.peCheckAlign
    cases koff with
    | none => exact .pure ht₃ _
    | some q => exact .require ht₃ _ (hun fun _ _ h => h)
  refine .bind hca fun _ t₄ h₄ ht₄ => ?_
  have : t₄ = t₃ := by
    unfold G.peCheckAlign at h₄
    cases koff with
    | none => exact (Prod.mk.inj h₄).2.symm
    | some q => exact (require_any h₄).2
  subst this
  refine .bind (.okOr ht₄ _ (hun fun _ _ h => h)) fun a t₅ h₅ ht₅ => ?_
  obtain ⟨ha, rfl⟩ := okOr_any h₅
  refine .bind (RdRep.seek ht₅ ⟨.inr (by rw [hlog]; rfl), rfl⟩) fun _ t₆ h₆ ht₆ => ?_
  obtain ⟨-, rfl⟩ := anySeek_ok h₆
  have hl6 : (t₅.add (.seekStart 0) .done).log =
      [(.seekEnd, .size size), (.seekStart 0, .done), (.readExact 64, .bytes hd), (.seekStart 0, .done)] := by
    show t₅.log ++ _ = _
    rw [hlog]; rfl
  refine .bind (RdRep.transfer ht₆ ?_) fun _ t₇ h₇ ht₇ =>
    .bind (.okOr ht₇ _ (hun fun _ _ h => h)) fun _ _ _ ht => .pure ht _
  refine ⟨by rw [hl6]; rfl, size, hd, by rw [hl6]; rfl, by rw [hl6]; rfl, ?_⟩
  obtain ⟨-, rfl⟩ := checkedAdd_some' ha
  have hoff : peTextOffset arch hd = peOffset arch hd := by
    have := peTextOffset_eq arch hd
    rwa [List.take_of_length_le (by omega)] at this
  have hbase : peBase koff = koffBase koff := by cases koff <;> rfl
  rw [hoff, hbase]; rfl

theorem rep_loadDtb (a : GuestAddr) (m : Mem) :
    RdRep (DtbNames a) (G.loadDtb (anyIo R) a) ⟨m, []⟩ := by
  have h0 : RdClean ⟨m, []⟩ := fun _ h => nomatch h
  have hun : ∀ {e}, (∀ l o, ¬ DtbNames a e l o) → Unnamed (DtbNames a) e := fun h ⟨l, o, hn⟩ => h l o hn
  unfold G.loadDtb
  refine .bind (RdRep.seekEnd h0 ⟨rfl, rfl⟩) fun size t h ht => ?_
  obtain ⟨-, rfl⟩ := anySeekEnd_ok h
  refine .bind (.require ht _ (hun fun _ _ h => h)) fun _ t₁ h₁ ht₁ => ?_
  obtain ⟨-, rfl⟩ := require_any h₁
  refine .bind (RdRep.seek ht₁ ⟨rfl, rfl⟩) fun _ t₂ h₂ ht₂ => ?_
  obtain ⟨-, rfl⟩ := anySeek_ok h₂
  exact RdRep.transfer ht₂ ⟨rfl, size, rfl, rfl⟩

/-! ## Guest memory -/

section
variable {ε : Type} {names : ε → MemLog → MemReq → Prop} {M : AnyMem} {l : MemLog}

/-- For guest memory. -/
abbrev MemRep {α : Type} (names : ε → MemLog → MemReq → Prop) (x : LM MemLog ε α) (l : MemLog) : Prop :=
  RepAt id .failed names x l

theorem MemRep.write (hs : CleanLog .failed l) {bytes : List UInt8} {a : GuestAddr} {e : ε}
    (hn : names e l (.writeSlice a bytes)) : MemRep names (anyWriteSlice M bytes a e) l := by
  unfold MemRep RepAt anyWriteSlice
  split
  · exact .inl ⟨hs.append (.one fun h => nomatch h), fun e h => nomatch h⟩
  · exact .inr ⟨_, _, e, rfl, hs, rfl, hn⟩

theorem MemRep.offset (hs : CleanLog .failed l) {n : Nat} {a : GuestAddr} {e : ε}
    (hn : names e l (.checkedOffset a n)) : MemRep names (anyCheckedOffset M a n e) l := by
  unfold MemRep RepAt anyCheckedOffset
  split
  · exact .inl ⟨hs.append (.one fun h => nomatch h), fun e h => nomatch h⟩
  · exact .inr ⟨_, _, e, rfl, hs, rfl, hn⟩

theorem anyWriteSlice_ok {bytes : List UInt8} {a : GuestAddr} {e : ε} {l l' : MemLog} {u : Unit}
    (h : anyWriteSlice M bytes a e l = (.ok u, l')) : l' = l ++ [(.writeSlice a bytes, .done)] := by
  unfold anyWriteSlice at h
  split at h
  · exact (Prod.mk.inj h).2.symm
  · cases h

theorem anyCheckedOffset_ok {n : Nat} {a b : GuestAddr} {e : ε} {l l' : MemLog}
    (h : anyCheckedOffset M a n e l = (.ok b, l')) : l' = l ++ [(.checkedOffset a n, .addr b)] := by
  unfold anyCheckedOffset at h
  split at h
  · cases h; rfl
  · cases h

theorem okOr_log {α : Type} {o : Option α} {e : ε} {l l' : MemLog} {a : α}
    (h : (LM.okOr o e : LM MemLog ε α) l = (.ok a, l')) : o = some a ∧ l' = l := by
  cases o with
  | none => cases h
  | some b => cases h; exact ⟨rfl, rfl⟩

end

variable {M : AnyMem}

theorem clean_nil {A Q : Type} {failed : A} : CleanLog (Q := Q) failed [] := fun _ h => nomatch h

theorem rep_linuxWrite (p : BootParams) : MemRep (LinuxNames p) (G.linuxWrite (anyMemOps M) p) [] := by
  unfold G.linuxWrite
  exact .bind (MemRep.offset clean_nil rfl) fun _ t _ ht => MemRep.write ht rfl

theorem rep_fdtWrite (p : BootParams) : MemRep (FdtNames p) (G.fdtWrite (anyMemOps M) p) [] := by
  unfold G.fdtWrite
  exact .bind (MemRep.offset clean_nil rfl) fun _ t _ ht => MemRep.write ht rfl

theorem rep_loadCmdline (a : GuestAddr) (c : Cmdline) :
    MemRep (CmdlineNames a) (G.loadCmdline (anyMemOps M) a c) [] := by
  have hun : ∀ {e}, (∀ l o, ¬ CmdlineNames a e l o) → Unnamed (CmdlineNames a) e := fun h ⟨l, o, hn⟩ => h l o hn
  unfold G.loadCmdline
  refine .bind (.ofRes clean_nil fun e he => ?_) fun cs t h ht => ?_
  · split at he
    · cases he
    · cases he; exact hun fun _ _ h => h
    · cases he
  refine .bind (.okOr ht _ (hun fun _ _ h => h)) fun e t₁ h₁ ht₁ => ?_
  refine .bind ?_ fun _ t₂ h₂ ht₂ => MemRep.write ht₂ ⟨_, rfl⟩
  refine .inl ⟨ht₁.append (.one fun h => nomatch h), fun e' he => ?_⟩
  have he : (if e > M.last (t₁.map Prod.fst) then (.err .commandLineOverflow : Res CmdlineLoadError Unit) else .ok ()) =
    .err e' := he
  split at he
  · cases he; exact hun fun _ _ h => h
  · cases he

theorem rep_pvhWrite (p : BootParams) : MemRep (PvhNames p) (G.pvhWrite (anyMemOps M) p) [] := by
  have hun : ∀ {e}, (∀ l o, ¬ PvhNames p e l o) → Unnamed (PvhNames p) e := fun h ⟨l, o, hn⟩ => h l o hn
  unfold G.pvhWrite
  refine .bind (.okOr clean_nil _ (hun fun _ _ h => h)) fun b t h ht => ?_
  obtain ⟨hb, rfl⟩ := okOr_log h
  refine .bind (.okOr ht _ (hun fun _ _ h => h)) fun a t h ht => ?_
  obtain ⟨ha, rfl⟩ := okOr_log h
  refine .bind (MemRep.offset ht ⟨rfl, a, b, ha, hb, rfl⟩) fun x t h ht => ?_
  cases anyCheckedOffset_ok h
  refine .bind (MemRep.write ht ⟨rfl, a, b, ha, hb, rfl⟩) fun _ t h ht => ?_
  cases anyWriteSlice_ok h
  refine .bind (MemRep.offset ht ⟨rfl, rfl⟩) fun y t h ht => ?_
  cases anyCheckedOffset_ok h
  refine .bind (MemRep.write ht ⟨rfl, rfl⟩) fun _ t h ht => ?_
  cases anyWriteSlice_ok h
  unfold G.pvhWriteModules
  split
  · exact .pure ht _
  · rename_i mods hm
    refine .bind (.okOr ht _ (hun fun _ _ h => h)) fun ma t h ht => ?_
    obtain ⟨hma, rfl⟩ := okOr_log h
    exact MemRep.write ht ⟨rfl, ma, mods, hma, hm, rfl⟩

/-! What a successful call has written. -/

theorem linuxWrite_written {p : BootParams} {l : MemLog} (h : G.linuxWrite (anyMemOps M) p [] = (.ok (), l)) :
    written l = [(p.headerStart.toNat, p.header)] := by
  unfold G.linuxWrite at h
  obtain ⟨_, t, h1, h⟩ := LM.bind_eq_ok.1 h
  rw [anyWriteSlice_ok h, anyCheckedOffset_ok h1]; rfl

theorem fdtWrite_written {p : BootParams} {l : MemLog} (h : G.fdtWrite (anyMemOps M) p [] = (.ok (), l)) :
    written l = [(p.headerStart.toNat, p.header)] := by
  unfold G.fdtWrite at h
  obtain ⟨_, t, h1, h⟩ := LM.bind_eq_ok.1 h
  rw [anyWriteSlice_ok h, anyCheckedOffset_ok h1]; rfl

theorem pvhWrite_written {p : BootParams} {l : MemLog} (h : G.pvhWrite (anyMemOps M) p [] = (.ok (), l)) :
    written l = pvhPieces p ∧ (∃ a b, p.sectionsStart = some a ∧ p.sections = some b) ∧
    (∀ b, p.modules = some b → ∃ a, p.modulesStart = some a) := by
  unfold G.pvhWrite at h
  obtain ⟨b, t, h1, h⟩ := LM.bind_eq_ok.1 h
  obtain ⟨hb, rfl⟩ := okOr_log h1
  obtain ⟨a, t, h1, h⟩ := LM.bind_eq_ok.1 h
  obtain ⟨ha, rfl⟩ := okOr_log h1
  obtain ⟨x, t, h1, h⟩ := LM.bind_eq_ok.1 h
  cases anyCheckedOffset_ok h1
  obtain ⟨_, t, h1, h⟩ := LM.bind_eq_ok.1 h
  cases anyWriteSlice_ok h1
  obtain ⟨y, t, h1, h⟩ := LM.bind_eq_ok.1 h
  cases anyCheckedOffset_ok h1
  obtain ⟨_, t, h1, h⟩ := LM.bind_eq_ok.1 h
  cases anyWriteSlice_ok h1
  unfold G.pvhWriteModules at h
  unfold pvhPieces
  rw [hb, ha]
  cases hm : p.modules with
  | none =>
    rw [hm] at h
    cases h
    exact ⟨rfl, ⟨a, b, rfl, rfl⟩, fun _ h => nomatch h⟩
  | some mods =>
    rw [hm] at h
    obtain ⟨ma, t, h1, h⟩ := LM.bind_eq_ok.1 h
    obtain ⟨hma, rfl⟩ := okOr_log h1
    rw [anyWriteSlice_ok h, hma]
    exact ⟨rfl, ⟨a, b, rfl, rfl⟩, fun _ _ => ⟨ma, rfl⟩⟩

theorem loadCmdline_written {a : GuestAddr} {c : Cmdline} {l : MemLog}
    (h : G.loadCmdline (anyMemOps M) a c [] = (.ok (), l)) :
    ∃ bs, c.asCString = .ok bs ∧ written l = [(a.toNat, bs ++ [0])] ∧ a.toNat + bs.length < U64 ∧
      ∃ v, (.lastAddr, .addr v) ∈ l ∧ a.toNat + bs.length ≤ v.toNat := by
  unfold G.loadCmdline at h
  obtain ⟨bs, t, h1, h⟩ := LM.bind_eq_ok.1 h
  obtain ⟨e, t₁, h2, h⟩ := LM.bind_eq_ok.1 h
  obtain ⟨_, t₂, h3, h⟩ := LM.bind_eq_ok.1 h
  have hbs := (Prod.mk.inj h1).1
  cases (Prod.mk.inj h1).2
  obtain ⟨he, rfl⟩ := okOr_log h2
  have hbs : c.asCString = .ok bs := by
    split at hbs
    · rename_i hb; rw [hb]; cases hbs; rfl
    · cases hbs
    · cases hbs
  have h31 := (Prod.mk.inj h3).1
  cases (Prod.mk.inj h3).2
  have h31 : (if e > M.last [] then (.err .commandLineOverflow : Res CmdlineLoadError Unit) else .ok ()) = .ok _ := h31
  split at h31
  · cases h31
  rename_i hle
  have hl : (Cmdline.bytesWithNul bs).length - 1 = bs.length := by simp [Cmdline.bytesWithNul]
  rw [hl] at he
  have h6 := addrAddNat_some.1 he
  rw [anyWriteSlice_ok h]
  refine ⟨bs, hbs, rfl, by rw [← h6]; exact e.toNat_lt, M.last [], by simp, ?_⟩
  rw [← h6]
  exact UInt64.le_iff_toNat_le.1 (UInt64.not_lt.1 hle)

end LinuxLoader
