import Verif.Spec.Panicking
import Verif.Lemmas.IoErrors

/-! # Panics of the reader and of guest memory -/

namespace LinuxLoader
open Spec

/-! ## Readers -/

section
variable {R : AnyReader} {pn : List RdOp → RdOp → Bool} {ε α β : Type} {s : AnyState}

/-- How the two runs may end: no request failed; the last one failed, without a panic; or with one. -/
def TwinR (pn : List RdOp → RdOp → Bool) (p q : Res ε α × AnyState) : Prop :=
  (p = q ∧ RdClean q.2) ∨
  (∃ before o e, p = q ∧ q.1 = .err e ∧ RdClean ⟨q.2.mem, before⟩ ∧ q.2.log = before ++ [(o, .failed)] ∧
    pn (before.map Prod.fst) o = false) ∨
  (∃ before o e, p = (.panic, q.2) ∧ q.1 = .err e ∧ RdClean ⟨q.2.mem, before⟩ ∧
    q.2.log = before ++ [(o, .failed)] ∧ pn (before.map Prod.fst) o = true)

/-- From a state where no request failed. -/
def Twin (pn : List RdOp → RdOp → Bool) (x y : LM AnyState ε α) : Prop :=
  ∀ s, RdClean s → TwinR pn (x s) (y s)

namespace Twin

theorem ofRes (r : Res ε α) : Twin pn (LM.ofRes r : LM AnyState ε α) (LM.ofRes r) := fun _ hs => .inl ⟨rfl, hs⟩

theorem pure (a : α) : Twin pn (Pure.pure a : LM AnyState ε α) (Pure.pure a) := ofRes (.ok a)

theorem okOr (o : Option α) (e : ε) : Twin pn (LM.okOr o e : LM AnyState ε α) (LM.okOr o e) := by
  cases o with
  | none => exact ofRes (.err e)
  | some a => exact ofRes (.ok a)

theorem require (b : Bool) (e : ε) : Twin pn (LM.require b e : LM AnyState ε Unit) (LM.require b e) := by
  cases b with
  | false => exact ofRes (.err e)
  | true => exact ofRes (.ok ())

theorem bind {x y : LM AnyState ε α} {f g : α → LM AnyState ε β} (hx : Twin pn x y) (hf : ∀ a, Twin pn (f a) (g a)) :
    Twin pn (x >>= f) (y >>= g) := fun s hs => by
  rcases hy : y s with ⟨r, t⟩
  have h := hx s hs
  rw [hy] at h
  rcases h with ⟨hxy, hc⟩ | ⟨before, o, e, hxy, he, hc, hl, hp⟩ | ⟨before, o, e, hxy, he, hc, hl, hp⟩
  · cases r with
    | ok a => rw [LM.bind_ok hxy, LM.bind_ok hy]; exact hf a t hc
    | err e => rw [LM.bind_err hxy, LM.bind_err hy]; exact .inl ⟨rfl, hc⟩
    | panic => rw [LM.bind_panic hxy, LM.bind_panic hy]; exact .inl ⟨rfl, hc⟩
  · cases he
    rw [LM.bind_err hxy, LM.bind_err hy]
    exact .inr (.inl ⟨before, o, e, rfl, rfl, hc, hl, hp⟩)
  · cases he
    rw [LM.bind_panic hxy, LM.bind_err hy]
    exact .inr (.inr ⟨before, o, e, rfl, rfl, hc, hl, hp⟩)

/-- One request. -/
theorem one {x y : LM AnyState ε α} {e : ε} (o : RdOp)
    (h : ∀ s, (pn s.ops o = true ∧ ∃ m, x s = (.panic, AnyState.add ⟨m, s.log⟩ o .failed) ∧
          y s = (.err e, AnyState.add ⟨m, s.log⟩ o .failed)) ∨
        (pn s.ops o = false ∧ x s = y s ∧ ((∃ m, y s = (.err e, AnyState.add ⟨m, s.log⟩ o .failed)) ∨
          ∃ a m ans, y s = (.ok a, AnyState.add ⟨m, s.log⟩ o ans) ∧ ans ≠ .failed))) : Twin pn x y := fun s hs => by
  rcases h s with ⟨hp, m, h1, h2⟩ | ⟨hp, hxy, ⟨m, h⟩ | ⟨a, m, ans, h, hans⟩⟩
  · rw [h1, h2]; exact .inr (.inr ⟨s.log, o, e, rfl, rfl, hs, rfl, hp⟩)
  · rw [hxy, h]; exact .inr (.inl ⟨s.log, o, e, rfl, rfl, hs, rfl, hp⟩)
  · rw [hxy, h]; exact .inl ⟨rfl, hs.append (.one hans)⟩

theorem seek (o : RdOp) (e : ε) :
    Twin pn (panickingAt pn o (anySeek R o e)) (anySeek (failingInstead R pn) o e) := by
  refine one (e := e) o fun s => ?_
  unfold panickingAt anySeek failingInstead
  cases hp : pn s.ops o
  · refine .inr ⟨rfl, ?_⟩
    cases hf : R.fails s.ops o
    · exact ⟨by simp [hp, hf], .inr ⟨(), s.mem, .done, by simp [hp, hf], fun h => nomatch h⟩⟩
    · exact ⟨by simp [hp, hf], .inl ⟨s.mem, by simp [hf]⟩⟩
  · exact .inl ⟨rfl, s.mem, by simp, by simp [hp]⟩

theorem seekEnd (e : ε) :
    Twin pn (panickingAt pn .seekEnd (anySeekEnd R e)) (anySeekEnd (failingInstead R pn) e) := by
  refine one (e := e) .seekEnd fun s => ?_
  unfold panickingAt anySeekEnd failingInstead
  cases hp : pn s.ops .seekEnd
  · refine .inr ⟨rfl, ?_⟩
    cases hf : R.fails s.ops .seekEnd
    · exact ⟨by simp [hp, hf], .inr ⟨(R.size s.ops).toNat, s.mem, .size (R.size s.ops).toNat, by simp [hp, hf], fun h => nomatch h⟩⟩
    · exact ⟨by simp [hp, hf], .inl ⟨s.mem, by simp [hf]⟩⟩
  · exact .inl ⟨rfl, s.mem, by simp, by simp [hp]⟩

theorem read (o : RdOp) (n : Nat) (e : ε) :
    Twin pn (panickingAt pn o (anyRead R o n e)) (anyRead (failingInstead R pn) o n e) := by
  refine one (e := e) o fun s => ?_
  unfold panickingAt anyRead failingInstead
  cases hp : pn s.ops o
  · refine .inr ⟨rfl, ?_⟩
    cases hf : R.fails s.ops o
    · exact ⟨by simp [hp, hf], .inr ⟨(List.range n).map (R.byte s.ops o), s.mem,
        .bytes ((List.range n).map (R.byte s.ops o)), by simp [hp, hf], fun h => nomatch h⟩⟩
    · exact ⟨by simp [hp, hf], .inl ⟨s.mem, by simp [hf]⟩⟩
  · exact .inl ⟨rfl, s.mem, by simp, by simp [hp]⟩

theorem transfer (a n : Nat) (e : ε) :
    Twin pn (panickingTransfer R pn a n e) (anyTransfer (failingInstead R pn) a n e) := by
  refine one (e := e) (.readIntoMem a n) fun s => ?_
  unfold panickingTransfer anyTransfer failingInstead
  cases hp : pn s.ops (.readIntoMem a n)
  · refine .inr ⟨rfl, by simp [hp], ?_⟩
    simp only [hp, Bool.or_false]
    split
    · exact .inr ⟨(), _, .done, rfl, fun h => nomatch h⟩
    · exact .inl ⟨_, rfl⟩
  · refine .inl ⟨rfl, _, by simp only [if_true]; rfl, by simp [hp]⟩

/-- What it means. -/
theorem through {x y : LM AnyState ε α} (h : Twin pn x y) (m : Mem) : PanicsThrough pn (x ⟨m, []⟩) (y ⟨m, []⟩) := by
  have clean : ∀ {l : List (RdOp × Answer)}, CleanLog Answer.failed l → ¬ EndsInPanic pn l := fun hc ⟨before, o, hl, _⟩ =>
    hc (o, .failed) (by rw [hl]; simp) rfl
  rcases h ⟨m, []⟩ (fun _ h => nomatch h) with ⟨hxy, hc⟩ | ⟨before, o, e, hxy, he, hc, hl, hp⟩ |
      ⟨before, o, e, hxy, he, hc, hl, hp⟩
  · exact ⟨by rw [hxy], fun hp => absurd hp (clean hc), fun _ => by rw [hxy]⟩
  · refine ⟨by rw [hxy], fun ⟨b', o', hl', hp'⟩ => ?_, fun _ => by rw [hxy]⟩
    rw [hl] at hl'
    obtain ⟨rfl, h2⟩ := List.append_inj' hl' rfl
    simp only [List.cons.injEq, Prod.mk.injEq, and_true] at h2
    subst h2
    rw [hp] at hp'; cases hp'
  · exact ⟨by rw [hxy], fun _ => ⟨by rw [hxy], e, he⟩, fun hn => absurd ⟨before, o, hl, hp⟩ hn⟩

end Twin
end

/-! ### The loaders -/

section
variable {R : AnyReader} {pn : List RdOp → RdOp → Bool}

theorem twin_notePvh (t n : Nat) :
    Twin pn (G.notePvh (panicIo R pn) t n) (G.notePvh (anyIo (failingInstead R pn)) t n) := by
  unfold G.notePvh
  split
  · exact .bind (.read _ _ _) fun _ => .pure _
  · exact .pure _

theorem twin_noteLoop (ph : Phdr) : ∀ fuel r,
    Twin pn (G.noteLoop (panicIo R pn) ph fuel r) (G.noteLoop (anyIo (failingInstead R pn)) ph fuel r)
  | 0, _ => .ofRes _
  | fuel + 1, r => by
    unfold G.noteLoop
    split
    · refine .bind (.read _ _ _) fun _ => .bind (twin_notePvh _ _) fun f => ?_
      cases f with
      | true => exact .pure _
      | false =>
        exact .bind (.ofRes _) fun rs => .bind (.ofRes _) fun p => .bind (.seek _ _) fun _ =>
          twin_noteLoop ph fuel rs
    · exact .pure _

theorem twin_parseNote (ph : Phdr) :
    Twin pn (G.parseNote (panicIo R pn) ph) (G.parseNote (anyIo (failingInstead R pn)) ph) := by
  unfold G.parseNote
  refine .bind (.seek _ _) fun _ => .bind (twin_noteLoop ph _ _) fun r => ?_
  cases r with
  | none => exact .pure _
  | some n =>
    exact .bind (.ofRes _) fun _ => .bind (.seek _ _) fun _ => .bind (.require _ _) fun _ =>
      .bind (.read _ _ _) fun _ => .pure _

theorem twin_readPhdrs : ∀ n,
    Twin pn (G.readPhdrs (panicIo R pn) n) (G.readPhdrs (anyIo (failingInstead R pn)) n)
  | 0 => .pure _
  | n + 1 => by
    unfold G.readPhdrs
    exact .bind (.read _ _ _) fun _ => .bind (twin_readPhdrs n) fun _ => .pure _

theorem twin_loadSegment (koff : Option GuestAddr) (ph : Phdr) (kend : Nat) :
    Twin pn (G.loadSegment (panicIo R pn) koff ph kend) (G.loadSegment (anyIo (failingInstead R pn)) koff ph kend) := by
  unfold G.loadSegment
  exact .bind (.seek _ _) fun _ => .bind (.okOr _ _) fun _ => .bind (.transfer _ _ _) fun _ =>
    .bind (.okOr _ _) fun _ => .pure _

theorem twin_loadSegments (koff : Option GuestAddr) : ∀ (phs : List Phdr) (kend : Nat) (cap : PvhCap),
    Twin pn (G.loadSegments (panicIo R pn) koff phs kend cap)
      (G.loadSegments (anyIo (failingInstead R pn)) koff phs kend cap)
  | [], _, _ => .pure _
  | ph :: phs, kend, cap => by
    unfold G.loadSegments
    split
    · split
      · cases koff with
        | some k => exact twin_loadSegments _ _ _ _
        | none => exact .bind (twin_parseNote ph) fun _ => twin_loadSegments _ _ _ _
      · exact twin_loadSegments _ _ _ _
    · exact .bind (twin_loadSegment _ _ _) fun _ => twin_loadSegments _ _ _ _

theorem twin_elfLoad (koff highmem : Option GuestAddr) :
    Twin pn (G.elfLoad (panicIo R pn) koff highmem) (G.elfLoad (anyIo (failingInstead R pn)) koff highmem) := by
  unfold G.elfLoad
  refine .bind (.seek _ _) fun _ => .bind (.read _ _ _) fun eh => .bind (.ofRes _) fun _ => .bind ?_ fun _ =>
    .bind ?_ fun _ => .bind (.seek _ _) fun _ => .bind (twin_readPhdrs _) fun _ =>
    .bind (twin_loadSegments _ _ _ _) fun _ => .pure _
  · unfold G.checkEntry
    cases highmem with
    | none => exact .pure _
    | some q => exact .require _ _
  · unfold G.elfKernelLoad
    cases koff with
    | none => exact .pure _
    | some q => exact .okOr _ _

theorem twin_bzLoad (koff highmem : Option GuestAddr) :
    Twin pn (G.bzLoad (panicIo R pn) koff highmem) (G.bzLoad (anyIo (failingInstead R pn)) koff highmem) := by
  unfold G.bzLoad G.bzRest
  refine .bind (.seekEnd _) fun _ => .bind (.seek _ _) fun _ => .bind (.read _ _ _) fun h =>
    .bind (.require _ _) fun _ => .bind (.require _ _) fun _ => .bind (.okOr _ _) fun _ =>
    .bind (.okOr _ _) fun _ => .bind ?_ fun _ => .bind (.seek _ _) fun _ => .bind (.transfer _ _ _) fun _ =>
    .bind (.okOr _ _) fun _ => .pure _
  unfold G.bzCheckHighmem
  cases highmem with
  | none => exact .pure _
  | some q => exact .require _ _

theorem twin_peLoad (arch : PeArch) (koff highmem : Option GuestAddr) :
    Twin pn (G.peLoad (panicIo R pn) arch koff highmem) (G.peLoad (anyIo (failingInstead R pn)) arch koff highmem) := by
  unfold G.peLoad
  refine .bind (.seekEnd _) fun _ => .bind (.seek _ _) fun _ => .bind (.read _ _ _) fun h =>
    .bind (.require _ _) fun _ => .bind ?_ fun _ => .bind (.okOr _ _) fun _ => .bind (.seek _ _) fun _ =>
    .bind (.transfer _ _ _) fun _ => .bind (.okOr _ _) fun _ => .pure _
  unfold G.peCheckAlign
  cases koff with
  | none => exact .pure _
  | some q => exact .require _ _

theorem twin_loadDtb (a : GuestAddr) :
    Twin pn (G.loadDtb (panicIo R pn) a) (G.loadDtb (anyIo (failingInstead R pn)) a) := by
  unfold G.loadDtb
  exact .bind (.seekEnd _) fun _ => .bind (.require _ _) fun _ => .bind (.seek _ _) fun _ => .transfer _ _ _

end

/-! ## Guest memory -/

section
variable {M : AnyMem} {pn : List MemReq → MemReq → Bool} {ε α β : Type}

/-- How the two runs may end. -/
def CutR (pn : List MemReq → MemReq → Bool) (p q : Res ε α × MemLog) : Prop :=
  (p = q ∧ NoneOf pn q.2) ∨
  ∃ before o a after, p = (.panic, before ++ [(o, .failed)]) ∧ q.2 = before ++ (o, a) :: after ∧
    NoneOf pn before ∧ pn (before.map Prod.fst) o = true

/-- From a log without a panic. -/
def Cut (pn : List MemReq → MemReq → Bool) (x y : LM MemLog ε α) : Prop :=
  ∀ l, (∃ k, (y l).2 = l ++ k) ∧ (NoneOf pn l → CutR pn (x l) (y l))

theorem NoneOf.add {l : MemLog} {o : MemReq} {a : MemAnswer} (h : NoneOf pn l) (ho : pn (l.map Prod.fst) o = false) :
    NoneOf pn (l ++ [(o, a)]) := by
  intro before o' a' after hl
  rcases List.append_eq_append_iff.1 hl with ⟨z, h1, h2⟩ | ⟨z, h1, h2⟩
  · cases z with
    | nil =>
      simp only [List.nil_append, List.cons.injEq, Prod.mk.injEq] at h2
      simp only [List.append_nil] at h1
      rw [h1, ← h2.1.1]; exact ho
    | cons y z => simp at h2
  · cases z with
    | nil =>
      simp only [List.nil_append, List.cons.injEq, Prod.mk.injEq] at h2
      simp only [List.append_nil] at h1
      rw [← h1, h2.1.1]; exact ho
    | cons y z =>
      simp only [List.cons_append, List.cons.injEq] at h2
      exact h before o' a' z (by rw [h1, h2.1])

namespace Cut

theorem ofRes (r : Res ε α) : Cut pn (LM.ofRes r : LM MemLog ε α) (LM.ofRes r) := fun l =>
  ⟨⟨[], (List.append_nil l).symm⟩, fun h => .inl ⟨rfl, h⟩⟩

theorem pure (a : α) : Cut pn (Pure.pure a : LM MemLog ε α) (Pure.pure a) := ofRes (.ok a)

theorem okOr (o : Option α) (e : ε) : Cut pn (LM.okOr o e : LM MemLog ε α) (LM.okOr o e) := by
  cases o with
  | none => exact ofRes (.err e)
  | some a => exact ofRes (.ok a)

theorem bind {x y : LM MemLog ε α} {f g : α → LM MemLog ε β} (hx : Cut pn x y) (hf : ∀ a, Cut pn (f a) (g a)) :
    Cut pn (x >>= f) (y >>= g) := fun l => by
  rcases hy : y l with ⟨r, t⟩
  have h := hx l
  rw [hy] at h
  obtain ⟨⟨k, hk⟩, h⟩ := h
  simp only at hk
  subst hk
  cases r with
  | ok a =>
    obtain ⟨⟨k', hk'⟩, h'⟩ := hf a (l ++ k)
    rw [LM.bind_ok hy]
    refine ⟨⟨k ++ k', by rw [hk', List.append_assoc]⟩, fun hl => ?_⟩
    rcases h hl with ⟨hxy, hc⟩ | ⟨before, o, ans, after, hxy, hl, hn, hp⟩
    · rw [LM.bind_ok hxy]; exact h' hc
    · rw [LM.bind_panic hxy]
      simp only at hl
      exact .inr ⟨before, o, ans, after ++ k', rfl, by rw [hk', hl]; simp, hn, hp⟩
  | err e =>
    rw [LM.bind_err hy]
    refine ⟨⟨k, rfl⟩, fun hl => ?_⟩
    rcases h hl with ⟨hxy, hc⟩ | ⟨before, o, ans, after, hxy, hl, hn, hp⟩
    · rw [LM.bind_err hxy]; exact .inl ⟨rfl, hc⟩
    · rw [LM.bind_panic hxy]; exact .inr ⟨before, o, ans, after, rfl, hl, hn, hp⟩
  | panic =>
    rw [LM.bind_panic hy]
    refine ⟨⟨k, rfl⟩, fun hl => ?_⟩
    rcases h hl with ⟨hxy, hc⟩ | ⟨before, o, ans, after, hxy, hl, hn, hp⟩
    · rw [LM.bind_panic hxy]; exact .inl ⟨rfl, hc⟩
    · rw [LM.bind_panic hxy]; exact .inr ⟨before, o, ans, after, rfl, hl, hn, hp⟩

/-- One request. -/
theorem one {y : LM MemLog ε α} (o : MemReq) (h : ∀ l, ∃ r a, y l = (r, l ++ [(o, a)])) :
    Cut pn (memPanickingAt pn o y) y := fun l => by
  obtain ⟨r, a, hy⟩ := h l
  refine ⟨⟨[(o, a)], by rw [hy]⟩, fun hl => ?_⟩
  unfold memPanickingAt
  cases hp : pn (l.map Prod.fst) o
  · simp only [Bool.false_eq_true, if_false]
    rw [hy]
    exact .inl ⟨rfl, NoneOf.add hl hp⟩
  · simp only [if_true]
    exact .inr ⟨l, o, a, [], rfl, by rw [hy], hl, hp⟩

theorem write (bytes : List UInt8) (a : GuestAddr) (e : ε) :
    Cut pn ((panicMemOps M pn).writeSlice bytes a e) ((anyMemOps M).writeSlice bytes a e) :=
  one _ fun l => by
    show ∃ r ans, anyWriteSlice M bytes a e l = _
    unfold anyWriteSlice; split <;> exact ⟨_, _, rfl⟩

theorem offset (a : GuestAddr) (n : Nat) (e : ε) :
    Cut pn ((panicMemOps M pn).checkedOffset a n e) ((anyMemOps M).checkedOffset a n e) :=
  one _ fun l => by
    show ∃ r ans, anyCheckedOffset M a n e l = _
    unfold anyCheckedOffset; split <;> exact ⟨_, _, rfl⟩

theorem last (a : GuestAddr) : Cut pn ((panicMemOps M pn).checkLast a) ((anyMemOps M).checkLast a) :=
  one _ fun _ => ⟨_, _, rfl⟩

/-- What it means. -/
theorem cutAt {x y : LM MemLog ε α} (h : Cut pn x y) : CutAtPanic pn (x []) (y []) := by
  have h0 : NoneOf pn [] := fun before o a after hl => by simp at hl
  rcases (h []).2 h0 with ⟨hxy, hc⟩ | ⟨before, o, a, after, hxy, hl, hn, hp⟩
  · refine ⟨fun before o a after hl _ hp => ?_, fun _ => hxy⟩
    rw [hc before o a after hl] at hp; cases hp
  · refine ⟨fun b' o' a' after' hl' hn' hp' => ?_, fun hc => ?_⟩
    · rw [hl] at hl'
      rcases List.append_eq_append_iff.1 hl' with ⟨z, h1, h2⟩ | ⟨z, h1, h2⟩
      · cases z with
        | nil =>
          simp only [List.nil_append, List.cons.injEq, Prod.mk.injEq] at h2
          simp only [List.append_nil] at h1
          rw [hxy, h1, h2.1.1]
        | cons y z =>
          simp only [List.cons_append, List.cons.injEq] at h2
          have := hn' before o a z (by rw [h1, ← h2.1])
          rw [hp] at this; cases this
      · cases z with
        | nil =>
          simp only [List.nil_append, List.cons.injEq, Prod.mk.injEq] at h2
          simp only [List.append_nil] at h1
          rw [hxy, ← h1, h2.1.1]
        | cons y z =>
          simp only [List.cons_append, List.cons.injEq] at h2
          have := hn b' o' a' z (by rw [h1, ← h2.1])
          rw [hp'] at this; cases this
    · have := hc before o a after hl
      rw [hp] at this; cases this

end Cut

theorem cut_loadCmdline (a : GuestAddr) (c : Cmdline) :
    Cut pn (G.loadCmdline (panicMemOps M pn) a c) (G.loadCmdline (anyMemOps M) a c) := by
  unfold G.loadCmdline
  exact .bind (.ofRes _) fun _ => .bind (.okOr _ _) fun _ => .bind (.last _) fun _ => .write _ _ _

theorem cut_linuxWrite (p : BootParams) :
    Cut pn (G.linuxWrite (panicMemOps M pn) p) (G.linuxWrite (anyMemOps M) p) := by
  unfold G.linuxWrite
  exact .bind (.offset _ _ _) fun _ => .write _ _ _

theorem cut_fdtWrite (p : BootParams) :
    Cut pn (G.fdtWrite (panicMemOps M pn) p) (G.fdtWrite (anyMemOps M) p) := by
  unfold G.fdtWrite
  exact .bind (.offset _ _ _) fun _ => .write _ _ _

theorem cut_pvhWrite (p : BootParams) :
    Cut pn (G.pvhWrite (panicMemOps M pn) p) (G.pvhWrite (anyMemOps M) p) := by
  unfold G.pvhWrite
  refine .bind (.okOr _ _) fun _ => .bind (.okOr _ _) fun _ => .bind (.offset _ _ _) fun _ => .bind (.write _ _ _) fun _ =>
    .bind (.offset _ _ _) fun _ => .bind (.write _ _ _) fun _ => ?_
  unfold G.pvhWriteModules
  cases p.modules with
  | none => exact .pure _
  | some ms => exact .bind (.okOr _ _) fun _ => .write _ _ _

end
end LinuxLoader
