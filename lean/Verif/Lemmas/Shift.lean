import Verif.Lemmas.Pe

/-!
# Only the events met during a call matter

A call depends on the schedule of the reader only through the events from the current operation on.
-/

namespace LinuxLoader
open Spec

/-- Same image, position and memory, and the same events from now on. -/
def SameEvents (s t : LS) : Prop :=
  t.rd.data = s.rd.data ∧ t.rd.pos = s.rd.pos ∧ t.mem = s.mem ∧
  ∀ i, t.rd.sched (t.rd.clock + i) = s.rd.sched (s.rd.clock + i)

/-- `x` does the same in both states. -/
def Shift {ε α : Type} (x : LM LS ε α) : Prop :=
  ∀ s t, SameEvents s t → (x t).1 = (x s).1 ∧ SameEvents (x s).2 (x t).2

theorem SameEvents.now {s t : LS} (h : SameEvents s t) :
    t.rd.sched t.rd.clock = s.rd.sched s.rd.clock := h.2.2.2 0

theorem SameEvents.fails {s t : LS} (h : SameEvents s t) : ioFails t = ioFails s := by
  unfold ioFails; rw [h.now]

theorem SameEvents.rest {s t : LS} (h : SameEvents s t) : t.rd.rest = s.rd.rest := by
  unfold Reader.rest; rw [h.1, h.2.1]

theorem SameEvents.tick {s t : LS} (h : SameEvents s t) (p : Nat) (m m' : Mem) (hm : m' = m) :
    SameEvents ⟨s.rd.tick p, m⟩ ⟨t.rd.tick p, m'⟩ := by
  refine ⟨h.1, rfl, hm, fun i => ?_⟩
  have := h.2.2.2 (1 + i)
  simpa only [Reader.tick, Nat.add_assoc] using this

namespace Shift
variable {ε α β : Type}

theorem ofRes (r : Res ε α) : Shift (LM.ofRes r : LM LS ε α) := fun _ _ h => ⟨rfl, h⟩
theorem pure (a : α) : Shift (Pure.pure a : LM LS ε α) := fun _ _ h => ⟨rfl, h⟩
theorem okOr (o : Option α) (e : ε) : Shift (LM.okOr o e : LM LS ε α) := by
  cases o <;> exact fun _ _ h => ⟨rfl, h⟩
theorem require (b : Bool) (e : ε) : Shift (LM.require b e : LM LS ε Unit) := by
  cases b <;> exact fun _ _ h => ⟨rfl, h⟩

theorem bind {x : LM LS ε α} {f : α → LM LS ε β} (hx : Shift x) (hf : ∀ a, Shift (f a)) :
    Shift (x >>= f) := by
  intro s t h
  obtain ⟨h1, h2⟩ := hx s t h
  rw [LM.bind_def, LM.bind_def]
  rcases hs : x s with ⟨r, s'⟩
  rcases ht : x t with ⟨r', t'⟩
  rw [hs, ht] at h1 h2
  simp only at h1 h2
  subst h1
  cases r' with
  | ok a => exact hf a s' t' h2
  | err e => exact ⟨rfl, h2⟩
  | panic => exact ⟨rfl, h2⟩

theorem seekStart (p : Nat) (e : ε) : Shift (seekStart p e) := by
  intro s t h
  unfold LinuxLoader.seekStart
  rw [h.fails]
  split
  · refine ⟨rfl, ?_⟩
    rw [h.2.1]; exact h.tick _ _ _ h.2.2.1
  · exact ⟨rfl, h.tick _ _ _ h.2.2.1⟩

theorem seekEnd (e : ε) : Shift (seekEnd e) := by
  intro s t h
  unfold LinuxLoader.seekEnd
  rw [h.fails, h.1]
  split
  · refine ⟨rfl, ?_⟩
    rw [h.2.1]; exact h.tick _ _ _ h.2.2.1
  · exact ⟨rfl, h.tick _ _ _ h.2.2.1⟩

theorem seekCur (d : Int) (e : ε) : Shift (seekCur d e) := by
  intro s t h
  unfold LinuxLoader.seekCur
  rw [h.fails, h.2.1]
  split
  · exact ⟨rfl, h.tick _ _ _ h.2.2.1⟩
  · exact ⟨rfl, h.tick _ _ _ h.2.2.1⟩

theorem readExact (n : Nat) (e : ε) : Shift (readExact n e) := by
  intro s t h
  unfold LinuxLoader.readExact
  rw [h.fails, h.rest, h.2.1]
  split
  · exact ⟨rfl, h.tick _ _ _ h.2.2.1⟩
  · exact ⟨rfl, h.tick _ _ _ h.2.2.1⟩

theorem readVolatile (n : Nat) (e : ε) : Shift (readVolatile n e) := by
  intro s t h
  unfold LinuxLoader.readVolatile
  rw [h.now, h.rest, h.2.1]
  split <;> exact ⟨rfl, h.tick _ _ _ h.2.2.1⟩

theorem readIntoMem (a n : Nat) (e : ε) : Shift (readIntoMem a n e) := by
  intro s t h
  have hs : scatterOf t = scatterOf s := by unfold scatterOf; rw [h.now]
  have hl : ioLimit t n = ioLimit s n := by unfold ioLimit; rw [h.now]
  unfold LinuxLoader.readIntoMem
  rw [hs]
  split
  · refine ⟨rfl, ?_⟩
    rw [h.2.1]
    exact h.tick _ _ _ (by rw [h.2.2.1])
  · unfold readPrefix
    simp only [hl, h.rest, h.2.2.1, h.2.1, h.fails]
    split
    · exact ⟨rfl, h.tick _ _ _ rfl⟩
    · exact ⟨rfl, h.tick _ _ _ rfl⟩

end Shift

theorem shift_notePvh (t n : Nat) : Shift (notePvh t n) := by
  unfold notePvh
  split
  · exact .bind (.readExact _ _) fun _ => .pure _
  · exact .pure _

theorem shift_noteLoop (ph : Phdr) : ∀ fuel r, Shift (noteLoop ph fuel r) := by
  intro fuel
  induction fuel with
  | zero => intro r; exact .ofRes _
  | succ fuel ih =>
    intro r
    unfold noteLoop
    split
    · refine .bind (.readExact _ _) fun _ => .bind (shift_notePvh _ _) fun b => ?_
      cases b with
      | true => exact .pure _
      | false =>
        exact .bind (.ofRes _) fun _ => .bind (.ofRes _) fun _ => .bind (.seekStart _ _) fun _ => ih _
    · exact .pure _

theorem shift_parseNote (ph : Phdr) : Shift (parseNote ph) := by
  refine .bind (.seekStart _ _) fun _ => .bind (shift_noteLoop _ _ _) fun r => ?_
  cases r with
  | none => exact .pure _
  | some n =>
    exact .bind (.ofRes _) fun _ => .bind (.seekCur _ _) fun _ => .bind (.require _ _) fun _ =>
      .bind (.readExact _ _) fun _ => .pure _

theorem shift_readPhdrs : ∀ n, Shift (readPhdrs n) := by
  intro n
  induction n with
  | zero => exact .pure _
  | succ n ih => exact .bind (.readExact _ _) fun _ => .bind ih fun _ => .pure _

theorem shift_loadSegments (koff : Option GuestAddr) :
    ∀ phs kend cap, Shift (loadSegments koff phs kend cap) := by
  intro phs
  induction phs with
  | nil => intro kend cap; exact .pure _
  | cons h t ih =>
    intro kend cap
    unfold loadSegments
    split
    · split
      · cases koff with
        | some k => exact ih _ _
        | none => exact .bind (shift_parseNote _) fun _ => ih _ _
      · exact ih _ _
    · refine .bind ?_ fun _ => ih _ _
      exact .bind (.seekStart _ _) fun _ => .bind (.okOr _ _) fun _ =>
        .bind (.readIntoMem _ _ _) fun _ => .bind (.okOr _ _) fun _ => .pure _

theorem shift_elfLoad (koff highmem : Option GuestAddr) : Shift (elfLoad koff highmem) := by
  refine .bind (.seekStart _ _) fun _ => .bind (.readExact _ _) fun _ => .bind (.ofRes _) fun _ =>
    .bind ?_ fun _ => .bind ?_ fun _ => .bind (.seekStart _ _) fun _ => .bind (shift_readPhdrs _) fun _ =>
    .bind (shift_loadSegments _ _ _ _) fun _ => .pure _
  · cases highmem with
    | none => exact .pure _
    | some h => exact .require _ _
  · cases koff with
    | none => exact .pure _
    | some h => exact .okOr _ _

theorem shift_bzLoad (koff highmem : Option GuestAddr) : Shift (bzLoad koff highmem) := by
  refine .bind (.seekEnd _) fun _ => .bind (.seekStart _ _) fun _ => .bind (.readVolatile _ _) fun _ => ?_
  refine .bind (.require _ _) fun _ => .bind (.require _ _) fun _ => .bind (.okOr _ _) fun _ =>
    .bind (.okOr _ _) fun _ => .bind ?_ fun _ => .bind (.seekStart _ _) fun _ =>
    .bind (.readIntoMem _ _ _) fun _ => .bind (.okOr _ _) fun _ => .pure _
  cases highmem with
  | none => exact .pure _
  | some q => exact .require _ _

theorem shift_peLoad (arch : PeArch) (koff highmem : Option GuestAddr) :
    Shift (peLoad arch koff highmem) := by
  refine .bind (.seekEnd _) fun _ => .bind (.seekStart _ _) fun _ => .bind (.readExact _ _) fun _ =>
    .bind (.require _ _) fun _ => .bind ?_ fun _ => .bind (.okOr _ _) fun _ =>
    .bind (.seekStart _ _) fun _ => .bind (.readIntoMem _ _ _) fun _ => .bind (.okOr _ _) fun _ => .pure _
  cases koff with
  | none => exact .pure _
  | some q => exact .require _ _

theorem shift_loadDtb (a : GuestAddr) : Shift (loadDtb a) :=
  .bind (.seekEnd _) fun _ => .bind (.require _ _) fun _ => .bind (.seekStart _ _) fun _ =>
    .readIntoMem _ _ _

end LinuxLoader
