import Verif.Spec.AnyReader
import Verif.Lemmas.Footprint

/-! # The loaders with readers that may do anything -/

namespace LinuxLoader
open Spec

variable {R : AnyReader}

/-! ## Composition -/

theorem LM.post_bind {σ ε α β : Type} {Q : Res ε β → σ → Prop} {x : LM σ ε α} {f : α → LM σ ε β} {s : σ}
    (herr : ∀ e s₁, x s = (.err e, s₁) → Q (.err e) s₁) (hpan : ∀ s₁, x s = (.panic, s₁) → Q .panic s₁)
    (hok : ∀ a s₁, x s = (.ok a, s₁) → Q (f a s₁).1 (f a s₁).2) : Q ((x >>= f) s).1 ((x >>= f) s).2 := by
  rcases hx : x s with ⟨r, s₁⟩
  cases r with
  | ok a => rw [LM.bind_ok hx]; exact hok a s₁ hx
  | err e => rw [LM.bind_err hx]; exact herr e s₁ hx
  | panic => rw [LM.bind_panic hx]; exact hpan s₁ hx

/-- No panic. -/
def NoPanic {σ ε α : Type} (x : LM σ ε α) (s : σ) : Prop := (x s).1 ≠ .panic

namespace NoPanic
variable {σ ε α β : Type} {s : σ}

theorem bind {x : LM σ ε α} {f : α → LM σ ε β} (hx : NoPanic x s)
    (hf : ∀ a s₁, x s = (.ok a, s₁) → NoPanic (f a) s₁) : NoPanic (x >>= f) s := by
  refine LM.post_bind (Q := fun r _ => r ≠ .panic) (fun e s₁ _ => fun h => nomatch h) (fun s₁ h => ?_) hf
  exact absurd (by rw [h]) hx

theorem pure (a : α) : NoPanic (Pure.pure a : LM σ ε α) s := fun h => nomatch h

theorem okOr (o : Option α) (e : ε) : NoPanic (LM.okOr o e : LM σ ε α) s := by
  cases o <;> exact fun h => nomatch h

theorem require (b : Bool) (e : ε) : NoPanic (LM.require b e : LM σ ε Unit) s := by
  cases b <;> exact fun h => nomatch h

theorem ofRes {r : Res ε α} (h : r ≠ .panic) : NoPanic (LM.ofRes r : LM σ ε α) s := h

end NoPanic

theorem anySeek_noPanic {ε : Type} (o : RdOp) (e : ε) (s : AnyState) : NoPanic (anySeek R o e) s := by
  unfold NoPanic anySeek; split <;> exact fun h => nomatch h

theorem anySeekEnd_noPanic {ε : Type} (e : ε) (s : AnyState) : NoPanic (anySeekEnd R e) s := by
  unfold NoPanic anySeekEnd; split <;> exact fun h => nomatch h

theorem anyRead_noPanic {ε : Type} (o : RdOp) (n : Nat) (e : ε) (s : AnyState) : NoPanic (anyRead R o n e) s := by
  unfold NoPanic anyRead; split <;> exact fun h => nomatch h

theorem anyTransfer_noPanic {ε : Type} (a n : Nat) (e : ε) (s : AnyState) : NoPanic (anyTransfer R a n e) s := by
  unfold NoPanic anyTransfer; simp only; split <;> exact fun h => nomatch h

/-! ## What one request does -/

theorem anySeek_ok {ε : Type} {o : RdOp} {e : ε} {s s₁ : AnyState} {u : Unit}
    (h : anySeek R o e s = (.ok u, s₁)) : R.fails s.ops o = false ∧ s₁ = s.add o .done := by
  unfold anySeek at h
  split at h
  · cases h
  · rename_i hc; cases h; exact ⟨by simpa using hc, rfl⟩

theorem anyRead_ok {ε : Type} {o : RdOp} {n : Nat} {e : ε} {s s₁ : AnyState} {b : List UInt8}
    (h : anyRead R o n e s = (.ok b, s₁)) : b.length = n ∧ s₁ = s.add o (.bytes b) := by
  unfold anyRead at h
  split at h
  · cases h
  · cases h; exact ⟨by simp, rfl⟩

theorem anyRead_works {ε : Type} {o : RdOp} {n : Nat} {e : ε} {s s₁ : AnyState} {b : List UInt8}
    (h : anyRead R o n e s = (.ok b, s₁)) : R.fails s.ops o = false := by
  unfold anyRead at h
  split at h
  · cases h
  · rename_i hc; simpa using hc

theorem anySeekEnd_ok {ε : Type} {e : ε} {s s₁ : AnyState} {n : Nat}
    (h : anySeekEnd R e s = (.ok n, s₁)) : n < U64 ∧ s₁ = s.add .seekEnd (.size n) := by
  unfold anySeekEnd at h
  split at h
  · cases h
  · cases h; exact ⟨(R.size s.ops).toNat_lt, rfl⟩

theorem anyTransfer_ok {ε : Type} {a n : Nat} {e : ε} {s s₁ : AnyState} {u : Unit}
    (h : anyTransfer R a n e s = (.ok u, s₁)) : Accessible s.mem a n ∧
      s₁ = ({ s with mem := s.mem.scatter a n (R.stored s.ops (.readIntoMem a n)) } : AnyState).add (.readIntoMem a n) .done := by
  unfold anyTransfer at h
  simp only at h
  split at h
  · rename_i hc; cases h; exact ⟨Mem.canAccess_iff.1 hc.2, rfl⟩
  · cases h

/-- From `s` to `t`, memory changed only at mapped addresses satisfying `T`; the new requests satisfy
`P`. -/
structure StepTo (T : Nat → Prop) (P : RdOp → Prop) (s t : AnyState) : Prop where
  layout : SameLayout s.mem t.mem
  frame : ∀ x, t.mem.data x ≠ s.mem.data x → T x ∧ s.mem.mapped x = true
  log : ∃ l, t.log = s.log ++ l ∧ ∀ e ∈ l, P e.1

namespace StepTo
variable {T : Nat → Prop} {P : RdOp → Prop}

theorem refl (s : AnyState) : StepTo T P s s :=
  ⟨⟨rfl, rfl⟩, fun _ h => absurd rfl h, [], by simp, by simp⟩

theorem mapped_layout {m m' : Mem} (h : SameLayout m m') (x : Nat) : m'.mapped x = m.mapped x := by
  unfold Mem.mapped; rw [h.1]

theorem trans {s t u : AnyState} (h : StepTo T P s t) (k : StepTo T P t u) : StepTo T P s u where
  layout := ⟨k.layout.1.trans h.layout.1, k.layout.2.trans h.layout.2⟩
  frame := fun x hx => by
    by_cases h1 : t.mem.data x = s.mem.data x
    · have := k.frame x (by rw [h1]; exact hx)
      rw [mapped_layout h.layout] at this
      exact this
    · exact h.frame x h1
  log := by
    obtain ⟨l, hl, hp⟩ := h.log
    obtain ⟨l', hl', hp'⟩ := k.log
    refine ⟨l ++ l', by rw [hl', hl, List.append_assoc], fun e he => ?_⟩
    rcases List.mem_append.1 he with he | he
    · exact hp e he
    · exact hp' e he

theorem mono {T' : Nat → Prop} {s t : AnyState} (h : StepTo T P s t) (hT : ∀ x, T x → T' x) :
    StepTo T' P s t := ⟨h.layout, fun x hx => ⟨hT x (h.frame x hx).1, (h.frame x hx).2⟩, h.log⟩

theorem add (s : AnyState) (o : RdOp) (a : Answer) (hp : P o) : StepTo T P s (s.add o a) :=
  ⟨⟨rfl, rfl⟩, fun _ h => absurd rfl h, [(o, a)], rfl, by simpa using hp⟩

end StepTo

/-- Every run. -/
def Steps {ε α : Type} (T : Nat → Prop) (P : RdOp → Prop) (x : LM AnyState ε α) : Prop :=
  ∀ s, StepTo T P s (x s).2

namespace Steps
variable {ε α β : Type} {T : Nat → Prop} {P : RdOp → Prop}

theorem ofRes (r : Res ε α) : Steps T P (LM.ofRes r : LM AnyState ε α) := fun s => StepTo.refl s

theorem pure (a : α) : Steps T P (Pure.pure a : LM AnyState ε α) := ofRes (.ok a)

theorem okOr (o : Option α) (e : ε) : Steps T P (LM.okOr o e : LM AnyState ε α) := by
  cases o with
  | none => exact ofRes (.err e)
  | some a => exact ofRes (.ok a)

theorem require (b : Bool) (e : ε) : Steps T P (LM.require b e : LM AnyState ε Unit) := by
  cases b with
  | false => exact ofRes (.err e)
  | true => exact ofRes (.ok ())

theorem bind {x : LM AnyState ε α} {f : α → LM AnyState ε β} (hx : Steps T P x) (hf : ∀ a, Steps T P (f a)) :
    Steps T P (x >>= f) := fun s =>
  LM.post_bind (Q := fun _ t => StepTo T P s t) (fun e s₁ h => by have := hx s; rw [h] at this; exact this)
    (fun s₁ h => by have := hx s; rw [h] at this; exact this)
    (fun a s₁ h => by have := hx s; rw [h] at this; exact this.trans (hf a s₁))

theorem bindI {x : LM AnyState ε α} {f : α → LM AnyState ε β} (hx : Steps T P x)
    (hf : ∀ a s s₁, x s = (.ok a, s₁) → Steps T P (f a)) : Steps T P (x >>= f) := fun s =>
  LM.post_bind (Q := fun _ t => StepTo T P s t) (fun e s₁ h => by have := hx s; rw [h] at this; exact this)
    (fun s₁ h => by have := hx s; rw [h] at this; exact this)
    (fun a s₁ h => by have := hx s; rw [h] at this; exact this.trans (hf a s s₁ h s₁))

theorem seek (o : RdOp) (e : ε) (hp : P o) : Steps T P (anySeek R o e) := fun s => by
  unfold anySeek; split <;> exact StepTo.add s o _ hp

theorem seekEnd (e : ε) (hp : P .seekEnd) : Steps T P (anySeekEnd R e) := fun s => by
  unfold anySeekEnd; split <;> exact StepTo.add s _ _ hp

theorem read (o : RdOp) (n : Nat) (e : ε) (hp : P o) : Steps T P (anyRead R o n e) := fun s => by
  unfold anyRead; split <;> exact StepTo.add s o _ hp

theorem transfer (a n : Nat) (e : ε) (hp : P (.readIntoMem a n)) (hT : ∀ x, InRange a n x → T x) :
    Steps T P (anyTransfer R a n e) := fun s => by
  have key : ∀ ans, StepTo T P s (({ s with mem := s.mem.scatter a n (R.stored s.ops (.readIntoMem a n)) } : AnyState).add
      (.readIntoMem a n) ans) := fun ans => by
    refine ⟨⟨rfl, rfl⟩, fun x hx => ?_, [(.readIntoMem a n, ans)], rfl, by simpa using hp⟩
    simp only [AnyState.add, Mem.scatter] at hx
    split at hx
    · rename_i hc; exact ⟨hT x ⟨hc.1, hc.2.1⟩, hc.2.2⟩
    · exact absurd rfl hx
  unfold anyTransfer
  simp only
  split <;> exact key _

end Steps

/-! ## Elf::load -/

theorem steps_notePvh {T : Nat → Prop} {P : RdOp → Prop} (hp : P (.readExact 4)) (t n : Nat) :
    Steps T P (G.notePvh (anyIo R) t n) := by
  unfold G.notePvh
  split
  · exact .bind (.read _ _ _ hp) fun _ => .pure _
  · exact .pure _

theorem steps_noteLoop {T : Nat → Prop} {P : RdOp → Prop} (h4 : P (.readExact 4)) (h12 : P (.readExact 12))
    (hs : ∀ p, P (.seekStart p)) (ph : Phdr) : ∀ fuel r, Steps T P (G.noteLoop (anyIo R) ph fuel r)
  | 0, _ => .ofRes _
  | fuel + 1, r => by
    unfold G.noteLoop
    split
    · refine .bind (.read _ _ _ h12) fun _ => .bind (steps_notePvh h4 _ _) fun f => ?_
      cases f with
      | true => exact .pure _
      | false =>
        exact .bind (.ofRes _) fun rs => .bind (.ofRes _) fun p => .bind (.seek _ _ (hs p)) fun _ =>
          steps_noteLoop h4 h12 hs ph fuel rs
    · exact .pure _

theorem steps_parseNote {T : Nat → Prop} {P : RdOp → Prop} (h4 : P (.readExact 4)) (h12 : P (.readExact 12))
    (hs : ∀ p, P (.seekStart p)) (hc : ∀ d, P (.seekCur d)) (ph : Phdr) :
    Steps T P (G.parseNote (anyIo R) ph) := by
  unfold G.parseNote
  refine .bind (.seek _ _ (hs _)) fun _ => .bind (steps_noteLoop h4 h12 hs ph _ _) fun r => ?_
  cases r with
  | none => exact .pure _
  | some n =>
    exact .bind (.ofRes _) fun _ => .bind (.seek _ _ (hc _)) fun _ => .bind (.require _ _) fun _ =>
      .bind (.read _ _ _ h4) fun _ => .pure _

/-- The requests of the loop over the program headers. -/
def SegOp : RdOp → Prop
  | .readExact n => n = 4 ∨ n = 12
  | .seekEnd => False
  | .readVolatile _ => False
  | _ => True

theorem segmentAddr_some {koff : Option GuestAddr} {ph : Phdr} {a : Nat} (h : segmentAddr koff ph = some a) :
    a = koffBase koff + ph.paddr := by
  unfold segmentAddr at h
  cases koff with
  | none => cases h; simp [koffBase]
  | some k =>
    simp only [checkedAdd] at h
    split at h
    · cases h; rfl
    · cases h

theorem okOr_any {ε α : Type} {o : Option α} {e : ε} {s s₁ : AnyState} {a : α}
    (h : LM.okOr o e s = (.ok a, s₁)) : o = some a ∧ s₁ = s := by
  cases o with
  | none => cases h
  | some b => cases h; exact ⟨rfl, rfl⟩

theorem steps_loadSegment {T : Nat → Prop} {koff : Option GuestAddr} {ph : Phdr} {kend : Nat}
    (hT : ∀ x, InRange (koffBase koff + ph.paddr) ph.filesz x → T x) :
    Steps T SegOp (G.loadSegment (anyIo R) koff ph kend) := by
  unfold G.loadSegment
  refine .bind (.seek _ _ trivial) fun _ => .bindI (.okOr _ _) fun a s s₁ h => ?_
  have := segmentAddr_some (okOr_any h).1
  subst this
  exact .bind (.transfer _ _ _ trivial hT) fun _ => .bind (.okOr _ _) fun _ => .pure _

theorem steps_loadSegments {koff : Option GuestAddr} : ∀ (phs : List Phdr) (kend : Nat) (cap : PvhCap),
    Steps (fun x => ∃ h ∈ phs, h.Loadable ∧ InRange (koffBase koff + h.paddr) h.filesz x) SegOp
      (G.loadSegments (anyIo R) koff phs kend cap)
  | [], _, _ => .pure _
  | ph :: phs, kend, cap => by
    have hrest : ∀ kend cap, Steps (fun x => ∃ h ∈ ph :: phs, h.Loadable ∧
        InRange (koffBase koff + h.paddr) h.filesz x) SegOp (G.loadSegments (anyIo R) koff phs kend cap) :=
      fun kend cap s => (steps_loadSegments phs kend cap s).mono fun x ⟨h, hh, hx⟩ =>
        ⟨h, List.mem_cons_of_mem _ hh, hx⟩
    unfold G.loadSegments
    split
    · split
      · cases koff with
        | some k => exact hrest _ _
        | none =>
          exact .bind (steps_parseNote (.inl rfl) (.inr rfl) (fun _ => trivial) (fun _ => trivial) ph) fun _ => hrest _ _
      · exact hrest _ _
    · rename_i hc
      refine .bind (steps_loadSegment fun x hx => ⟨ph, List.mem_cons_self, ⟨?_, ?_⟩, hx⟩) fun _ => hrest _ _
      · exact Decidable.not_not.1 fun h => hc (.inl h)
      · exact fun h => hc (.inr h)

theorem delivered_append (n : Nat) (k l : List (RdOp × Answer)) :
    delivered n (k ++ l) = delivered n k ++ delivered n l := by
  unfold delivered; rw [List.filterMap_append]

theorem deliveredPhdrs_append (k l : List (RdOp × Answer)) :
    deliveredPhdrs (k ++ l) = deliveredPhdrs k ++ deliveredPhdrs l := by
  unfold deliveredPhdrs; rw [delivered_append, List.map_append]

theorem delivered_none {n : Nat} {l : List (RdOp × Answer)} (h : ∀ e ∈ l, e.1 ≠ .readExact n) :
    delivered n l = [] := by
  unfold delivered
  rw [List.filterMap_eq_nil_iff]
  rintro ⟨o, a⟩ he
  have := h _ he
  simp only at this ⊢
  split
  · rename_i k b heq
    simp only [Prod.mk.injEq] at heq
    split
    · rename_i hk; exact absurd (by rw [heq.1, hk]) this
    · rfl
  · rfl

theorem delivered_segOp {n : Nat} (h4 : n ≠ 4) (h12 : n ≠ 12) {l : List (RdOp × Answer)}
    (h : ∀ e ∈ l, SegOp e.1) : delivered n l = [] :=
  delivered_none fun e he heq => by
    have := h e he
    rw [heq] at this
    simp only [SegOp] at this
    omega

theorem steps_readPhdrs {T : Nat → Prop} : ∀ n, Steps T (fun o => o = .readExact 56) (G.readPhdrs (anyIo R) n)
  | 0 => .pure _
  | n + 1 => by
    unfold G.readPhdrs
    exact .bind (.read _ _ _ rfl) fun _ => .bind (steps_readPhdrs n) fun _ => .pure _

/-- The program headers used are those delivered. -/
theorem readPhdrs_delivered : ∀ (n : Nat) (s s₁ : AnyState) (phs : List Phdr),
    G.readPhdrs (anyIo R) n s = (.ok phs, s₁) →
    ∃ l, s₁.log = s.log ++ l ∧ deliveredPhdrs l = phs ∧ phs.length = n ∧ ∀ e ∈ l, e.1 = .readExact 56
  | 0, s, s₁, phs, h => by cases h; exact ⟨[], by simp, rfl, rfl, by simp⟩
  | n + 1, s, s₁, phs, h => by
    unfold G.readPhdrs at h
    obtain ⟨b, t, h1, h⟩ := LM.bind_eq_ok.1 h
    obtain ⟨rest, t2, h2, h⟩ := LM.bind_eq_ok.1 h
    cases h
    obtain ⟨hb, rfl⟩ := anyRead_ok h1
    obtain ⟨l, hl, hd, hn, ho⟩ := readPhdrs_delivered n _ _ _ h2
    refine ⟨(.readExact 56, .bytes b) :: l, ?_, ?_, ?_, ?_⟩
    · rw [hl]; simp [AnyState.add]
    · show Phdr.ofBytes b :: deliveredPhdrs l = _
      rw [hd]
    · rw [List.length_cons, hn]
    · intro e he
      rcases List.mem_cons.1 he with rfl | he
      · rfl
      · exact ho e he

/-! ### No panic -/

theorem noteAdvance_any {r n d : Nat} (hn : n < 0x100000000) (hd : d < 0x100000000) :
    noteAdvance r n d ≠ .panic ∧ ∀ rs, noteAdvance r n d = .ok rs → r + 12 ≤ rs ∧ rs ≤ r + 0x200000004 := by
  unfold noteAdvance
  rw [alignUp_4 hn, alignUp_4 hd]
  simp only [Res.bind_ok]
  split
  · exact ⟨(fun h => nomatch h), (fun _ h => nomatch h)⟩
  · rename_i hc
    refine ⟨?_, fun rs h => ?_⟩
    · unfold okOr; split <;> exact fun h => nomatch h
    · unfold okOr at h
      split at h
      · rename_i v hv
        cases h
        obtain ⟨a, ha, hv⟩ := Option.bind_eq_some_iff.1 hv
        obtain ⟨b, hb, hv⟩ := Option.bind_eq_some_iff.1 hv
        unfold checkedAdd at ha hb hv
        split at ha <;> cases ha
        split at hb <;> cases hb
        split at hv <;> cases hv
        unfold up4 at *
        omega
      · cases h

theorem leField_lt4 (b : List UInt8) (o : Nat) : leField b o 4 < 0x100000000 := leField_lt b o 4

theorem noPanic_notePvh (t n : Nat) (s : AnyState) : NoPanic (G.notePvh (anyIo R) t n) s := by
  unfold G.notePvh
  split
  · exact .bind (anyRead_noPanic _ _ _ _) fun _ _ _ => .pure _
  · exact .pure _

theorem noPanic_noteLoop (hR : FileLike R) (ph : Phdr) : ∀ fuel r (s : AnyState),
    (∃ ops, s.ops = ops ++ [.seekStart (ph.offset + r)] ∧ R.fails ops (.seekStart (ph.offset + r)) = false) →
    0 < fuel → ph.filesz < fuel + r →
    NoPanic (G.noteLoop (anyIo R) ph fuel r) s
  | 0, _, _, _, h0, _ => absurd h0 (by omega)
  | fuel + 1, r, s, hpos, _, hfuel => by
    unfold G.noteLoop
    split
    · rename_i hr
      refine .bind (anyRead_noPanic _ _ _ _) fun b s₁ h1 => .bind (noPanic_notePvh _ _ _) fun f s₂ h2 => ?_
      have hpos : ph.offset + r < 0x8000000000000000 := by
        obtain ⟨ops, ho, hf⟩ := hpos
        refine Nat.lt_of_not_le fun hge => ?_
        rcases hR ops _ 12 hge (by omega) with h | h
        · rw [hf] at h; cases h
        · rw [← ho, anyRead_works h1] at h; cases h
      cases f with
      | true => exact .pure _
      | false =>
        have hna := noteAdvance_any (r := r) (leField_lt4 b 0) (leField_lt4 b 4)
        refine .bind (.ofRes hna.1) fun rs s₃ h3 => ?_
        have h3' : noteAdvance r (leField b 0 4) (leField b 4 4) = .ok rs := by
          have := congrArg Prod.fst h3; exact this
        have hrs := hna.2 rs h3'
        have hadd : (plainAdd ph.offset rs : Res LoadError Nat) = .ok (ph.offset + rs) := by
          unfold plainAdd U64
          rw [if_pos (by omega)]
        rw [hadd]
        refine .bind (.ofRes fun h => nomatch h) fun p s₄ h4 => ?_
        have hp : ph.offset + rs = p := by
          have := congrArg Prod.fst h4; simpa [LM.ofRes] using this
        subst hp
        refine .bind (anySeek_noPanic _ _ _) fun _ s₅ h5 => ?_
        obtain ⟨hf5, hs5⟩ := anySeek_ok h5
        exact noPanic_noteLoop hR ph fuel rs s₅ ⟨s₄.ops, by rw [hs5]; simp [AnyState.ops, AnyState.add], hf5⟩
          (by omega) (by omega)
    · exact .pure _

theorem noteLoop_namesz {ph : Phdr} {n : NoteLoop} : ∀ {fuel r : Nat} {s s₁ : AnyState},
    G.noteLoop (anyIo R) ph fuel r s = (.ok (some n), s₁) → n.namesz = 4
  | 0, r, s, s₁, h => by cases h
  | fuel + 1, r, s, s₁, h => by
    unfold G.noteLoop at h
    split at h
    · obtain ⟨b, t, h1, h⟩ := LM.bind_eq_ok.1 h
      obtain ⟨f, t2, h2, h⟩ := LM.bind_eq_ok.1 h
      cases f with
      | true =>
        rw [if_pos rfl] at h
        cases h
        unfold G.notePvh at h2
        split at h2
        · rename_i hc; exact hc.2
        · cases h2
      | false =>
        rw [if_neg (by simp)] at h
        obtain ⟨rs, t3, h3, h⟩ := LM.bind_eq_ok.1 h
        obtain ⟨p, t4, h4, h⟩ := LM.bind_eq_ok.1 h
        obtain ⟨u, t5, h5, h⟩ := LM.bind_eq_ok.1 h
        exact noteLoop_namesz h
    · cases h

theorem noPanic_parseNote (hR : FileLike R) (ph : Phdr) (s : AnyState) :
    NoPanic (G.parseNote (anyIo R) ph) s := by
  unfold G.parseNote
  refine .bind (anySeek_noPanic _ _ _) fun _ s₁ h1 => ?_
  obtain ⟨hf1, hs1⟩ := anySeek_ok h1
  refine .bind (noPanic_noteLoop hR ph _ _ _ ⟨s.ops, by rw [hs1]; simp [AnyState.ops, AnyState.add], hf1⟩
    (by omega) (by omega)) fun r s₂ h2 => ?_
  cases r with
  | none => exact .pure _
  | some n =>
    have hal : (alignUp n.namesz 4 : Res LoadError Nat) = .ok 4 := by rw [noteLoop_namesz h2]; rfl
    simp only
    rw [hal]
    exact .bind (.ofRes fun h => nomatch h) fun _ _ _ => .bind (anySeek_noPanic _ _ _) fun _ _ _ =>
      .bind (.require _ _) fun _ _ _ => .bind (anyRead_noPanic _ _ _ _) fun _ _ _ => .pure _

theorem noPanic_readPhdrs : ∀ n (s : AnyState), NoPanic (G.readPhdrs (anyIo R) n) s
  | 0, _ => .pure _
  | n + 1, _ => by
    unfold G.readPhdrs
    exact .bind (anyRead_noPanic _ _ _ _) fun _ _ _ => .bind (noPanic_readPhdrs n _) fun _ _ _ => .pure _

theorem noPanic_loadSegments {koff : Option GuestAddr} (hR : koff ≠ none ∨ FileLike R) :
    ∀ (phs : List Phdr) (kend : Nat) (cap : PvhCap) (s : AnyState),
      NoPanic (G.loadSegments (anyIo R) koff phs kend cap) s
  | [], _, _, _ => .pure _
  | ph :: phs, kend, cap, s => by
    unfold G.loadSegments
    split
    · split
      · cases koff with
        | some k => exact noPanic_loadSegments hR phs _ _ _
        | none =>
          refine .bind (noPanic_parseNote (hR.resolve_left fun h => h rfl) ph s) fun _ _ _ =>
            noPanic_loadSegments hR phs _ _ _
      · exact noPanic_loadSegments hR phs _ _ _
    · refine .bind ?_ fun _ _ _ => noPanic_loadSegments hR phs _ _ _
      unfold G.loadSegment
      exact .bind (anySeek_noPanic _ _ _) fun _ _ _ => .bind (.okOr _ _) fun _ _ _ =>
        .bind (anyTransfer_noPanic _ _ _ _) fun _ _ _ => .bind (.okOr _ _) fun _ _ _ => .pure _

theorem validateHeader_noPanic (b : List UInt8) : validateHeader b ≠ .panic := by
  unfold validateHeader
  repeat' split
  all_goals exact fun h => nomatch h

theorem noPanic_elfLoad {koff highmem : Option GuestAddr} (hR : koff ≠ none ∨ FileLike R) (s : AnyState) :
    NoPanic (G.elfLoad (anyIo R) koff highmem) s := by
  unfold G.elfLoad
  refine .bind (anySeek_noPanic _ _ _) fun _ _ _ => .bind (anyRead_noPanic _ _ _ _) fun b _ _ =>
    .bind (.ofRes (validateHeader_noPanic b)) fun _ _ _ => .bind ?_ fun _ _ _ => .bind ?_ fun _ _ _ =>
    .bind (anySeek_noPanic _ _ _) fun _ _ _ => .bind (noPanic_readPhdrs _ _) fun _ _ _ =>
    .bind (noPanic_loadSegments hR _ _ _ _) fun _ _ _ => .pure _
  · unfold G.checkEntry
    cases highmem with
    | none => exact .pure _
    | some a => exact .require _ _
  · unfold G.elfKernelLoad
    cases koff with
    | none => exact .pure _
    | some a => exact .okOr _ _

/-! ### Successful loads -/

theorem checkedAdd_some' {a b c : Nat} (h : checkedAdd a b = some c) : a + b < U64 ∧ c = a + b := by
  unfold checkedAdd at h
  split at h
  · rename_i hc; cases h; exact ⟨hc, rfl⟩
  · cases h

theorem loadSegment_any {koff : Option GuestAddr} {ph : Phdr} {kend e : Nat} {s s₁ : AnyState}
    (h : G.loadSegment (anyIo R) koff ph kend s = (.ok e, s₁)) :
    e = max kend (koffBase koff + ph.paddr + ph.memsz) ∧ koffBase koff + ph.paddr + ph.memsz < U64 ∧
    Mapped s.mem (koffBase koff + ph.paddr) ph.filesz := by
  unfold G.loadSegment at h
  obtain ⟨_, t1, h1, h⟩ := LM.bind_eq_ok.1 h
  obtain ⟨a, t2, h2, h⟩ := LM.bind_eq_ok.1 h
  obtain ⟨_, t3, h3, h⟩ := LM.bind_eq_ok.1 h
  obtain ⟨v, t4, h4, h⟩ := LM.bind_eq_ok.1 h
  obtain ⟨-, rfl⟩ := anySeek_ok h1
  obtain ⟨ha, rfl⟩ := okOr_any h2
  have := segmentAddr_some ha
  subst this
  obtain ⟨hacc, -⟩ := anyTransfer_ok h3
  obtain ⟨hv, rfl⟩ := okOr_any h4
  obtain ⟨h5, rfl⟩ := checkedAdd_some' hv
  cases h
  exact ⟨rfl, h5, hacc.1⟩

theorem parseNote_any {ph : Phdr} {c : PvhCap} {s s₁ : AnyState}
    (h : G.parseNote (anyIo R) ph s = (.ok c, s₁)) : c = .notPresent ∨ ∃ v, v < 0x100000000 ∧ c = .present v := by
  unfold G.parseNote at h
  obtain ⟨_, t1, h1, h⟩ := LM.bind_eq_ok.1 h
  obtain ⟨r, t2, h2, h⟩ := LM.bind_eq_ok.1 h
  cases r with
  | none => cases h; exact .inl rfl
  | some n =>
    obtain ⟨_, t3, h3, h⟩ := LM.bind_eq_ok.1 h
    obtain ⟨_, t4, h4, h⟩ := LM.bind_eq_ok.1 h
    obtain ⟨_, t5, h5, h⟩ := LM.bind_eq_ok.1 h
    obtain ⟨b, t6, h6, h⟩ := LM.bind_eq_ok.1 h
    cases h
    have := leNat_lt b
    rw [(anyRead_ok h6).1] at this
    exact .inr ⟨_, this, rfl⟩

/-- What a list of program headers says about PVH, as far as it does not depend on the notes. -/
def CapOk (koff : Option GuestAddr) (phs : List Phdr) (cap c : PvhCap) : Prop :=
  ((∀ h ∈ phs, ¬ h.IsNote) → c = cap) ∧
  ((∃ h ∈ phs, h.IsNote) → koff ≠ none → c = .ignored) ∧
  ((∃ h ∈ phs, h.IsNote) → koff = none → c = .notPresent ∨ ∃ v, v < 0x100000000 ∧ c = .present v)

theorem loadSegments_any {koff : Option GuestAddr} : ∀ (phs : List Phdr) (kend : Nat) (cap : PvhCap)
    (s s₁ : AnyState) (e : Nat) (c : PvhCap), G.loadSegments (anyIo R) koff phs kend cap s = (.ok (e, c), s₁) →
    kend ≤ e ∧ (e = kend ∨ ∃ h ∈ phs, h.Loadable ∧ e = koffBase koff + h.paddr + h.memsz) ∧
    (∀ h ∈ phs, h.Loadable → koffBase koff + h.paddr + h.memsz ≤ e ∧
      koffBase koff + h.paddr + h.memsz < U64 ∧ Mapped s.mem (koffBase koff + h.paddr) h.filesz) ∧
    CapOk koff phs cap c
  | [], kend, cap, s, s₁, e, c, h => by
    cases h
    exact ⟨Nat.le_refl _, .inl rfl, by simp, fun _ => rfl, by simp, by simp⟩
  | ph :: phs, kend, cap, s, s₁, e, c, h => by
    have mem : ∀ {P : Phdr → Prop}, (∃ h ∈ phs, P h) → ∃ h ∈ ph :: phs, P h :=
      fun ⟨h, hh, hp⟩ => ⟨h, List.mem_cons_of_mem _ hh, hp⟩
    unfold G.loadSegments at h
    by_cases hc : ph.type ≠ PT_LOAD ∨ ph.filesz = 0
    · have hnl : ¬ ph.Loadable := fun hl => hc.elim (fun h => h hl.1) (fun h => hl.2 h)
      have loads : ∀ {t : AnyState}, SameLayout s.mem t.mem →
          (∀ h ∈ phs, h.Loadable → koffBase koff + h.paddr + h.memsz ≤ e ∧
            koffBase koff + h.paddr + h.memsz < U64 ∧ Mapped t.mem (koffBase koff + h.paddr) h.filesz) →
          ∀ h ∈ ph :: phs, h.Loadable → koffBase koff + h.paddr + h.memsz ≤ e ∧
            koffBase koff + h.paddr + h.memsz < U64 ∧ Mapped s.mem (koffBase koff + h.paddr) h.filesz := by
        intro t hlay hh h hm hl
        rcases List.mem_cons.1 hm with rfl | hm
        · exact absurd hl hnl
        · obtain ⟨h1, h2, h3⟩ := hh h hm hl
          exact ⟨h1, h2, fun x hx => by rw [← StepTo.mapped_layout hlay]; exact h3 x hx⟩
      rw [if_pos hc] at h
      by_cases hn : ph.type = PT_NOTE
      · rw [if_pos hn] at h
        cases koff with
        | some k =>
          obtain ⟨h1, h2, h3, h4⟩ := loadSegments_any phs _ _ _ _ _ _ h
          refine ⟨h1, h2.imp id mem, loads ⟨rfl, rfl⟩ h3, fun hno => ?_, fun _ _ => ?_, fun _ hk => nomatch hk⟩
          · exact absurd hn (hno ph List.mem_cons_self)
          · by_cases hex : ∃ h ∈ phs, h.IsNote
            · exact h4.2.1 hex (by simp)
            · exact h4.1 fun h hh hi => hex ⟨h, hh, hi⟩
        | none =>
          obtain ⟨c', t, hp, h⟩ := LM.bind_eq_ok.1 h
          have hlay := (steps_parseNote (R := R) (T := fun _ => False) (P := fun _ => True) trivial trivial
            (fun _ => trivial) (fun _ => trivial) ph s).layout
          rw [hp] at hlay
          obtain ⟨h1, h2, h3, h4⟩ := loadSegments_any phs _ _ _ _ _ _ h
          refine ⟨h1, h2.imp id mem, loads hlay h3, fun hno => ?_, fun _ hk => absurd rfl hk, fun _ hk => ?_⟩
          · exact absurd hn (hno ph List.mem_cons_self)
          · by_cases hex : ∃ h ∈ phs, h.IsNote
            · exact h4.2.2 hex rfl
            · rw [h4.1 fun h hh hi => hex ⟨h, hh, hi⟩]
              exact parseNote_any hp
      · rw [if_neg hn] at h
        obtain ⟨h1, h2, h3, h4⟩ := loadSegments_any phs _ _ _ _ _ _ h
        have hex : (∃ h ∈ ph :: phs, h.IsNote) → ∃ h ∈ phs, h.IsNote := by
          rintro ⟨h, hh, hi⟩
          rcases List.mem_cons.1 hh with rfl | hh
          · exact absurd hi hn
          · exact ⟨h, hh, hi⟩
        exact ⟨h1, h2.imp id mem, loads ⟨rfl, rfl⟩ h3, fun hno => h4.1 fun h hh => hno h (List.mem_cons_of_mem _ hh),
          fun he => h4.2.1 (hex he), fun he => h4.2.2 (hex he)⟩
    · rw [if_neg hc] at h
      obtain ⟨e', t, hp, h⟩ := LM.bind_eq_ok.1 h
      have hl : ph.Loadable := ⟨Decidable.not_not.1 fun h => hc (.inl h), fun h => hc (.inr h)⟩
      have hn : ¬ ph.IsNote := fun hi => by
        have h1 := hl.1
        have h2 : ph.type = 4 := hi
        omega
      have hlay := (steps_loadSegment (R := R) (T := fun _ => True) (koff := koff) (ph := ph) (kend := kend)
        (fun _ _ => trivial) s).layout
      rw [hp] at hlay
      obtain ⟨k1, k2, k3⟩ := loadSegment_any hp
      obtain ⟨h1, h2, h3, h4⟩ := loadSegments_any phs _ _ _ _ _ _ h
      have hex : (∃ h ∈ ph :: phs, h.IsNote) → ∃ h ∈ phs, h.IsNote := by
        rintro ⟨h, hh, hi⟩
        rcases List.mem_cons.1 hh with rfl | hh
        · exact absurd hi hn
        · exact ⟨h, hh, hi⟩
      refine ⟨by omega, ?_, ?_, fun hno => h4.1 fun h hh => hno h (List.mem_cons_of_mem _ hh),
        fun he => h4.2.1 (hex he), fun he => h4.2.2 (hex he)⟩
      · rcases h2 with h2 | h2
        · rw [h2, k1]
          by_cases hm : kend ≤ koffBase koff + ph.paddr + ph.memsz
          · exact .inr ⟨ph, List.mem_cons_self, hl, by omega⟩
          · exact .inl (by omega)
        · exact .inr (mem h2)
      · intro h hm hl'
        rcases List.mem_cons.1 hm with rfl | hm
        · exact ⟨by omega, k2, k3⟩
        · obtain ⟨h1, h2, h3⟩ := h3 h hm hl'
          exact ⟨h1, h2, fun x hx => by rw [← StepTo.mapped_layout hlay]; exact h3 x hx⟩

theorem validateHeader_any {b : List UInt8} (hlen : b.length = 64) (h : validateHeader b = .ok ()) :
    ElfHeaderOk b := by
  unfold validateHeader at h
  split at h
  · cases h
  rename_i hm
  split at h
  · cases h
  rename_i h5
  split at h
  · cases h
  rename_i hp
  split at h
  · cases h
  rename_i ho
  refine ⟨by omega, ?_, Decidable.not_not.1 h5, Decidable.not_not.1 hp, Nat.le_of_not_lt ho⟩
  apply List.ext_getElem?
  intro i
  rw [List.getElem?_take]
  have k0 : b[0]? = some 0x7f := Decidable.not_not.1 fun h => hm (.inl h)
  have k1 : b[1]? = some 0x45 := Decidable.not_not.1 fun h => hm (.inr (.inl h))
  have k2 : b[2]? = some 0x4c := Decidable.not_not.1 fun h => hm (.inr (.inr (.inl h)))
  have k3 : b[3]? = some 0x46 := Decidable.not_not.1 fun h => hm (.inr (.inr (.inr h)))
  by_cases hi : i < 4
  · rw [if_pos hi]
    have : i = 0 ∨ i = 1 ∨ i = 2 ∨ i = 3 := by omega
    rcases this with rfl | rfl | rfl | rfl
    · exact k0
    · exact k1
    · exact k2
    · exact k3
  · rw [if_neg hi]
    symm
    apply List.getElem?_eq_none
    show 4 ≤ i
    omega

end LinuxLoader
