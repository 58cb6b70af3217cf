import Verif.Spec.Memory2
import Verif.Lemmas.Memory
import Verif.Lemmas.Reader
import Verif.Model.BzImage
import Verif.Model.Pe
import Verif.Model.BootParams

/-! # Lemmas: runs of the same call on two memories -/

namespace LinuxLoader
open Spec

/-- `m` overwritten by `w`. -/
def overwrite (m : Mem) (w : Nat → Option UInt8) : Mem :=
  { m with data := fun x => (w x).getD (m.data x) }

theorem overwrite_none (m : Mem) : overwrite m (fun _ => none) = m := rfl

theorem overwrite_overwrite (m : Mem) (w v : Nat → Option UInt8) :
    overwrite (overwrite m w) v = overwrite m (fun x => (v x).or (w x)) := by
  unfold overwrite; congr 1; funext x
  cases h : v x <;> simp only [h, Option.or, Option.getD]

theorem overwrite_idem (m : Mem) (w : Nat → Option UInt8) : overwrite (overwrite m w) w = overwrite m w := by
  rw [overwrite_overwrite]; congr 1; funext x; cases h : w x <;> rfl

/-- What `store` writes. -/
def storeMap (a : Nat) (bs : List UInt8) (x : Nat) : Option UInt8 := if a ≤ x then bs[x - a]? else none

theorem store_overwrite (m : Mem) (a : Nat) (bs : List UInt8) : m.store a bs = overwrite m (storeMap a bs) := by
  unfold Mem.store overwrite Mem.put storeMap
  congr 1; funext x
  split <;> rfl

/-- The same addresses are mapped. -/
def SameMap (m₁ m₂ : Mem) : Prop :=
  (∀ x, m₂.mapped x = m₁.mapped x) ∧ m₂.emptyOk = m₁.emptyOk ∧ m₂.lastAddr = m₁.lastAddr

theorem SameMap.ofLayout {m₁ m₂ : Mem} (h : SameLayout m₁ m₂) : SameMap m₁ m₂ :=
  ⟨fun x => by unfold Mem.mapped; rw [h.1], h.2, by unfold Mem.lastAddr; rw [h.1]⟩

theorem SameMap.ofAddresses {m₁ m₂ : Mem} (h1 : m₁.WF) (h2 : m₂.WF) (h : SameAddresses m₁ m₂) :
    SameMap m₁ m₂ := by
  refine ⟨h.1, h.2, ?_⟩
  have none : ∀ {m : Mem}, m.WF → (∀ x, m.mapped x = false) → m.regions = [] := by
    intro m hw hu
    cases hr : m.regions with
    | nil => rfl
    | cons r rs =>
      obtain ⟨L, hL⟩ := Mem.exists_last hw (by rw [hr]; simp)
      exact absurd (hL.1.symm.trans (hu L)) (by decide)
  cases hr : m₁.regions with
  | nil =>
    have hu : ∀ x, m₁.mapped x = false := fun x => by unfold Mem.mapped; rw [hr]; rfl
    have := none h2 fun x => (h.1 x).trans (hu x)
    unfold Mem.lastAddr
    rw [hr, this]
  | cons r rs =>
    obtain ⟨L, hL⟩ := Mem.exists_last h1 (by rw [hr]; simp)
    rw [Mem.lastAddr_eq h1 hL]
    exact Mem.lastAddr_eq h2 ⟨(h.1 L).trans hL.1, fun x hx => hL.2 x ((h.1 x).symm.trans hx)⟩

/-- Relation between the two memories: the same addresses mapped (`strict`), or more memory in the
second. -/
def Rel (strict : Bool) (m₁ m₂ : Mem) : Prop :=
  if strict then SameMap m₁ m₂ else m₁.WF ∧ MapsMore m₁ m₂

theorem Rel.overwrite {b : Bool} {m₁ m₂ : Mem} (h : Rel b m₁ m₂) (w : Nat → Option UInt8) :
    Rel b (overwrite m₁ w) (overwrite m₂ w) := by
  unfold Rel at *; split <;> rename_i hb <;> simp only [hb] at h <;> exact h

/-- The two runs agree and write the same, unless (non-strict case) the first one fails. -/
def Track {ε α : Type} (b : Bool) (f : LM LS ε α) : Prop :=
  ∀ rd m₁ m₂, Rel b m₁ m₂ → (b = true ∨ (f ⟨rd, m₁⟩).1.isOk = true) →
    ∃ w, (f ⟨rd, m₁⟩).1 = (f ⟨rd, m₂⟩).1 ∧ (f ⟨rd, m₁⟩).2.rd = (f ⟨rd, m₂⟩).2.rd ∧
      (f ⟨rd, m₁⟩).2.mem = overwrite m₁ w ∧ (f ⟨rd, m₂⟩).2.mem = overwrite m₂ w

namespace Track
variable {ε α β : Type} {b : Bool}

theorem ofRes (r : Res ε α) : Track b (LM.ofRes r : LM LS ε α) :=
  fun _ _ _ _ _ => ⟨fun _ => none, rfl, rfl, rfl, rfl⟩

theorem pure (a : α) : Track b (Pure.pure a : LM LS ε α) := ofRes (.ok a)

theorem okOr (o : Option α) (e : ε) : Track b (LM.okOr o e : LM LS ε α) := by
  cases o
  · exact ofRes (.err e)
  · exact ofRes (.ok _)

theorem require (c : Bool) (e : ε) : Track b (LM.require c e : LM LS ε Unit) := by
  cases c
  · exact ofRes (.err e)
  · exact ofRes (.ok _)

theorem bind {x : LM LS ε α} {f : α → LM LS ε β} (hx : Track b x) (hf : ∀ a, Track b (f a)) :
    Track b (x >>= f) := by
  intro rd m₁ m₂ hr hok
  simp only [LM.bind_def] at hok ⊢
  have hx' := hx rd m₁ m₂ hr
  revert hok hx'
  cases h1 : x ⟨rd, m₁⟩ with
  | mk r s =>
    cases h2 : x ⟨rd, m₂⟩ with
    | mk r2 s2 =>
      cases r with
      | ok a =>
        intro hok hx'
        obtain ⟨w, e1, e2, e3, e4⟩ := hx' (.inr rfl)
        dsimp only at e1 e2 e3 e4
        subst e1
        obtain ⟨rd1, mm1⟩ := s
        obtain ⟨rd2, mm2⟩ := s2
        dsimp only at e2 e3 e4
        subst e2 e3 e4
        obtain ⟨v, g1, g2, g3, g4⟩ := hf a rd1 _ _ (hr.overwrite w) hok
        refine ⟨fun x => (v x).or (w x), g1, g2, ?_, ?_⟩
        · exact g3.trans (overwrite_overwrite _ _ _)
        · exact g4.trans (overwrite_overwrite _ _ _)
      | err e =>
        intro hok hx'
        rcases hok with hb | hok
        · obtain ⟨w, e1, e2, e3, e4⟩ := hx' (.inl hb)
          dsimp only at e1 e2 e3 e4
          subst e1
          exact ⟨w, rfl, e2, e3, e4⟩
        · cases hok
      | panic =>
        intro hok hx'
        rcases hok with hb | hok
        · obtain ⟨w, e1, e2, e3, e4⟩ := hx' (.inl hb)
          dsimp only at e1 e2 e3 e4
          subst e1
          exact ⟨w, rfl, e2, e3, e4⟩
        · cases hok

/-- Operations that use the reader only. -/
theorem readerOnly (g : Reader → Res ε α × Reader) :
    Track b (fun s => ((g s.rd).1, ⟨(g s.rd).2, s.mem⟩) : LM LS ε α) :=
  fun _ _ _ _ _ => ⟨fun _ => none, rfl, rfl, rfl, rfl⟩

theorem seekStart (p : Nat) (e : ε) : Track b (seekStart p e) := by
  intro rd m₁ m₂ _ _
  refine ⟨fun _ => none, ?_⟩
  unfold LinuxLoader.seekStart ioFails
  cases rd.sched rd.clock <;> exact ⟨rfl, rfl, rfl, rfl⟩

theorem seekEnd (e : ε) : Track b (seekEnd e) := by
  intro rd m₁ m₂ _ _
  refine ⟨fun _ => none, ?_⟩
  unfold LinuxLoader.seekEnd ioFails
  cases rd.sched rd.clock <;> exact ⟨rfl, rfl, rfl, rfl⟩

theorem seekCur (d : Int) (e : ε) : Track b (seekCur d e) := by
  intro rd m₁ m₂ _ _
  refine ⟨fun _ => none, ?_⟩
  have hf : ioFails ⟨rd, m₂⟩ = ioFails ⟨rd, m₁⟩ := rfl
  unfold LinuxLoader.seekCur
  simp only [hf]
  by_cases h : ioFails ⟨rd, m₁⟩ = true ∨ (rd.pos : Int) + d < 0
  · rw [if_pos h, if_pos h]; exact ⟨rfl, rfl, rfl, rfl⟩
  · rw [if_neg h, if_neg h]; exact ⟨rfl, rfl, rfl, rfl⟩

theorem readExact (n : Nat) (e : ε) : Track b (readExact n e) := by
  intro rd m₁ m₂ _ _
  refine ⟨fun _ => none, ?_⟩
  have hf : ioFails ⟨rd, m₂⟩ = ioFails ⟨rd, m₁⟩ := rfl
  unfold LinuxLoader.readExact
  simp only [hf]
  by_cases h : ioFails ⟨rd, m₁⟩ = true ∨ rd.rest.length < n
  · rw [if_pos h, if_pos h]; exact ⟨rfl, rfl, rfl, rfl⟩
  · rw [if_neg h, if_neg h]; exact ⟨rfl, rfl, rfl, rfl⟩

theorem readVolatile (n : Nat) (e : ε) : Track b (readVolatile n e) := by
  intro rd m₁ m₂ _ _
  refine ⟨fun _ => none, ?_⟩
  unfold LinuxLoader.readVolatile
  cases rd.sched rd.clock <;> exact ⟨rfl, rfl, rfl, rfl⟩

end Track

theorem mappedPrefix_congr {m₁ m₂ : Mem} (h : SameMap m₁ m₂) (a n : Nat) :
    m₂.mappedPrefix a n = m₁.mappedPrefix a n := by
  induction n generalizing a with
  | zero => rfl
  | succ n ih =>
    unfold Mem.mappedPrefix
    rw [h.1, ih]

theorem canAccess_congr {m₁ m₂ : Mem} (h : SameMap m₁ m₂) (a n : Nat) :
    m₂.canAccess a n = m₁.canAccess a n := by
  simp only [Mem.canAccess, mappedPrefix_congr h, h.1, h.2.1]

theorem mapsMore_access {m₁ m₂ : Mem} (h : MapsMore m₁ m₂) {a n : Nat}
    (hc : m₁.canAccess a n = true) :
    m₂.canAccess a n = true ∧ m₁.mappedPrefix a n = n ∧ m₂.mappedPrefix a n = n := by
  have h1 := Mem.canAccess_iff.1 hc
  have h2 : Accessible m₂ a n :=
    ⟨fun x hx => h.1 x (h1.1 x hx), fun hn => (h1.2 hn).imp (fun g => h.2.trans g) (fun g => h.1 a g)⟩
  exact ⟨Mem.canAccess_iff.2 h2, Mem.prefix_full h1.1, Mem.prefix_full h2.1⟩

theorem Track.readPrefix {ε : Type} {b : Bool} (a n : Nat) (e : ε) : Track b (readPrefix a n e) := by
  intro rd m₁ m₂ hr hok
  have key : m₁.mappedPrefix a n = m₂.mappedPrefix a n ∧ m₁.canAccess a n = m₂.canAccess a n := by
    unfold Rel at hr
    cases b with
    | true =>
      simp only [↓reduceIte] at hr
      exact ⟨(mappedPrefix_congr hr a n).symm, (canAccess_congr hr a n).symm⟩
    | false =>
      simp only [Bool.false_eq_true, ↓reduceIte] at hr
      simp only [Bool.false_eq_true, false_or] at hok
      have hc : m₁.canAccess a n = true := by
        unfold LinuxLoader.readPrefix at hok
        simp only at hok
        split at hok
        · rename_i h; exact h.2.2
        · cases hok
      obtain ⟨h1, h2, h3⟩ := mapsMore_access hr.2 hc
      exact ⟨h2.trans h3.symm, hc.trans h1.symm⟩
  refine ⟨storeMap a (rd.rest.take (min (m₁.mappedPrefix a n) (ioLimit ⟨rd, m₁⟩ n))), ?_⟩
  have hl : ioLimit ⟨rd, m₂⟩ n = ioLimit ⟨rd, m₁⟩ n := rfl
  have hf : ioFails ⟨rd, m₂⟩ = ioFails ⟨rd, m₁⟩ := rfl
  unfold LinuxLoader.readPrefix
  simp only [hl, hf, ← key.1, ← key.2]
  split <;> exact ⟨rfl, rfl, store_overwrite _ _ _, store_overwrite _ _ _⟩

theorem scatter_overwrite (m : Mem) (a n : Nat) (w : Nat → Option UInt8) :
    m.scatter a n w = overwrite m fun x => if a ≤ x ∧ x < a + n ∧ m.mapped x = true then w x else none := by
  unfold Mem.scatter overwrite
  congr 1; funext x
  dsimp only
  split <;> rfl

theorem Track.readIntoMem {ε : Type} {b : Bool} (a n : Nat) (e : ε) : Track b (readIntoMem a n e) := by
  intro rd m₁ m₂ hr hok
  have hsame : scatterOf ⟨rd, m₂⟩ = scatterOf ⟨rd, m₁⟩ := rfl
  cases hw : scatterOf ⟨rd, m₁⟩ with
  | none =>
    have h := Track.readPrefix (b := b) a n e rd m₁ m₂ hr
    rw [readIntoMem_none hw] at hok ⊢
    rw [readIntoMem_none (hsame.trans hw)]
    exact h hok
  | some w =>
    rw [readIntoMem_some hw] at hok ⊢
    rw [readIntoMem_some (hsame.trans hw)]
    unfold Rel at hr
    rcases hok with rfl | hok
    · simp only [↓reduceIte] at hr
      refine ⟨_, rfl, rfl, scatter_overwrite _ _ _ _, ?_⟩
      rw [scatter_overwrite]
      simp only [hr.1]
    · cases hok

namespace Track
variable {b : Bool}

theorem notePvh (t n : Nat) : Track b (notePvh t n) := by
  unfold LinuxLoader.notePvh
  split
  · exact bind (readExact _ _) fun _ => pure _
  · exact pure _

theorem noteLoop (ph : Phdr) (fuel rs : Nat) : Track b (noteLoop ph fuel rs) := by
  induction fuel generalizing rs with
  | zero => exact ofRes _
  | succ fuel ih =>
    unfold LinuxLoader.noteLoop
    split
    · refine bind (readExact _ _) fun _ => bind (notePvh _ _) fun _ => ?_
      split
      · exact pure _
      · exact bind (ofRes _) fun _ => bind (ofRes _) fun _ => bind (seekStart _ _) fun _ => ih _
    · exact pure _

theorem parseNote (ph : Phdr) : Track b (parseNote ph) := by
  unfold LinuxLoader.parseNote
  refine bind (seekStart _ _) fun _ => bind (noteLoop _ _ _) fun r => ?_
  cases r with
  | none => exact pure _
  | some n =>
    exact bind (ofRes _) fun _ => bind (seekCur _ _) fun _ => bind (require _ _) fun _ =>
      bind (readExact _ _) fun _ => pure _

theorem readPhdrs (n : Nat) : Track b (readPhdrs n) := by
  induction n with
  | zero => exact pure _
  | succ n ih => exact bind (readExact _ _) fun _ => bind ih fun _ => pure _

theorem loadSegment (koff : Option GuestAddr) (ph : Phdr) (kend : Nat) :
    Track b (loadSegment koff ph kend) := by
  unfold LinuxLoader.loadSegment
  exact bind (seekStart _ _) fun _ => bind (okOr _ _) fun _ => bind (readIntoMem _ _ _) fun _ =>
    bind (okOr _ _) fun _ => pure _

theorem loadSegments (koff : Option GuestAddr) (phs : List Phdr) (kend : Nat) (cap : PvhCap) :
    Track b (loadSegments koff phs kend cap) := by
  induction phs generalizing kend cap with
  | nil => exact pure _
  | cons ph phs ih =>
    unfold LinuxLoader.loadSegments
    split
    · split
      · cases koff with
        | some k => exact ih _ _
        | none => exact bind (parseNote _) fun _ => ih _ _
      · exact ih _ _
    · exact bind (loadSegment _ _ _) fun _ => ih _ _

theorem elfLoad (koff highmem : Option GuestAddr) : Track b (elfLoad koff highmem) := by
  unfold LinuxLoader.elfLoad
  refine bind (seekStart _ _) fun _ => bind (readExact _ _) fun _ => bind (ofRes _) fun _ =>
    bind ?_ fun _ => bind ?_ fun _ => bind (seekStart _ _) fun _ => bind (readPhdrs _) fun _ =>
    bind (loadSegments _ _ _ _) fun _ => pure _
  · unfold checkEntry; split
    · exact require _ _
    · exact pure _
  · unfold elfKernelLoad; split
    · exact okOr _ _
    · exact pure _

theorem bzLoad (koff highmem : Option GuestAddr) : Track b (bzLoad koff highmem) := by
  unfold LinuxLoader.bzLoad
  refine bind (seekEnd _) fun _ => bind (seekStart _ _) fun _ => bind (readVolatile _ _) fun _ => ?_
  unfold bzRest
  refine bind (require _ _) fun _ => bind (require _ _) fun _ => bind (okOr _ _) fun _ =>
    bind (okOr _ _) fun _ => bind ?_ fun _ => bind (seekStart _ _) fun _ =>
    bind (readIntoMem _ _ _) fun _ => bind (okOr _ _) fun _ => pure _
  unfold bzCheckHighmem; split
  · exact require _ _
  · exact pure _

theorem peLoad (arch : PeArch) (koff highmem : Option GuestAddr) : Track b (peLoad arch koff highmem) := by
  unfold LinuxLoader.peLoad
  refine bind (seekEnd _) fun _ => bind (seekStart _ _) fun _ => bind (readExact _ _) fun _ =>
    bind (require _ _) fun _ => bind ?_ fun _ => bind (okOr _ _) fun _ => bind (seekStart _ _) fun _ =>
    bind (readIntoMem _ _ _) fun _ => bind (okOr _ _) fun _ => pure _
  unfold peCheckAlign; split
  · exact require _ _
  · exact pure _

theorem loadDtb (a : GuestAddr) : Track b (loadDtb a) := by
  unfold LinuxLoader.loadDtb
  exact bind (seekEnd _) fun _ => bind (require _ _) fun _ => bind (seekStart _ _) fun _ =>
    readIntoMem _ _ _

end Track

/-! ## Calls without a reader -/

/-- A call without a reader, as one with a reader that it does not use. -/
def liftM {ε α : Type} (f : LM Mem ε α) : LM LS ε α := fun s => ((f s.mem).1, ⟨s.rd, (f s.mem).2⟩)

theorem liftM_bind {ε α β : Type} (x : LM Mem ε α) (f : α → LM Mem ε β) :
    liftM (x >>= f) = (liftM x >>= fun a => liftM (f a)) := by
  funext s
  simp only [liftM, LM.bind_def]
  cases h : x s.mem with
  | mk r m => cases r <;> rfl

theorem liftM_ofRes {ε α : Type} (r : Res ε α) : liftM (LM.ofRes r : LM Mem ε α) = LM.ofRes r := rfl

namespace Track
variable {b : Bool} {ε : Type}

theorem writeSliceOr (bs : List UInt8) (a : GuestAddr) (e : ε) :
    Track b (liftM (writeSliceOr bs a e)) := by
  intro rd m₁ m₂ hr hok
  have key : m₁.mappedPrefix a.toNat bs.length = m₂.mappedPrefix a.toNat bs.length ∧
      m₁.canAccess a.toNat bs.length = m₂.canAccess a.toNat bs.length := by
    unfold Rel at hr
    cases b with
    | true =>
      simp only [↓reduceIte] at hr
      exact ⟨(mappedPrefix_congr hr _ _).symm, (canAccess_congr hr _ _).symm⟩
    | false =>
      simp only [Bool.false_eq_true, ↓reduceIte] at hr
      simp only [Bool.false_eq_true, false_or] at hok
      have hc : m₁.canAccess a.toNat bs.length = true := by
        unfold liftM LinuxLoader.writeSliceOr Mem.writeSlice at hok
        cases h : m₁.canAccess a.toNat bs.length with
        | true => rfl
        | false => simp only [h] at hok; cases hok
      obtain ⟨h1, h2, h3⟩ := mapsMore_access hr.2 hc
      exact ⟨h2.trans h3.symm, hc.trans h1.symm⟩
  refine ⟨storeMap a.toNat (bs.take (m₁.mappedPrefix a.toNat bs.length)), ?_⟩
  unfold liftM LinuxLoader.writeSliceOr Mem.writeSlice
  simp only [← key.1, ← key.2]
  cases m₁.canAccess a.toNat bs.length <;>
    exact ⟨by trivial, by trivial, store_overwrite _ _ _, store_overwrite _ _ _⟩

theorem checkedOffsetOr (a : GuestAddr) (n : Nat) (e : ε) :
    Track b (liftM (checkedOffsetOr a n e)) := by
  intro rd m₁ m₂ hr hok
  refine ⟨fun _ => none, ?_⟩
  have key : m₁.checkedOffset a n = m₂.checkedOffset a n := by
    unfold Rel at hr
    unfold Mem.checkedOffset
    cases b with
    | true =>
      simp only [↓reduceIte] at hr
      simp only [hr.1]
    | false =>
      simp only [Bool.false_eq_true, ↓reduceIte] at hr
      simp only [Bool.false_eq_true, false_or] at hok
      unfold liftM LinuxLoader.checkedOffsetOr Mem.checkedOffset at hok
      cases h : addrAddNat a n with
      | none => rfl
      | some x =>
        simp only [h] at hok ⊢
        cases hm : m₁.mapped x.toNat with
        | true => simp only [hr.2.1 _ hm]
        | false => simp only [hm, Bool.false_eq_true, ↓reduceIte] at hok; cases hok
  unfold liftM LinuxLoader.checkedOffsetOr
  simp only [← key]
  cases m₁.checkedOffset a n <;> exact ⟨by trivial, by trivial, rfl, rfl⟩

theorem lastAddr_mono {m₁ m₂ : Mem} (hw : m₁.WF) (h : MapsMore m₁ m₂) : m₁.lastAddr ≤ m₂.lastAddr := by
  cases hr : m₁.regions with
  | nil => unfold Mem.lastAddr; rw [hr]; exact Nat.zero_le _
  | cons r rs =>
    obtain ⟨L, hL⟩ := Mem.exists_last hw (by rw [hr]; simp)
    rw [Mem.lastAddr_eq hw hL]
    exact Mem.le_lastAddr (h.1 L hL.1)

theorem checkLastAddr (a : GuestAddr) : Track b (liftM (checkLastAddr a)) := by
  intro rd m₁ m₂ hr hok
  refine ⟨fun _ => none, ?_⟩
  have key : (a.toNat > m₁.lastAddr) ↔ (a.toNat > m₂.lastAddr) := by
    unfold Rel at hr
    cases b with
    | true =>
      simp only [↓reduceIte] at hr
      rw [hr.2.2]
    | false =>
      simp only [Bool.false_eq_true, ↓reduceIte] at hr
      simp only [Bool.false_eq_true, false_or] at hok
      have := lastAddr_mono hr.1 hr.2
      constructor
      · intro h
        unfold liftM LinuxLoader.checkLastAddr at hok
        simp only [h, ↓reduceIte] at hok
        cases hok
      · intro h; omega
  unfold liftM LinuxLoader.checkLastAddr
  by_cases h : a.toNat > m₁.lastAddr
  · simp only [if_pos h, if_pos (key.1 h)]; exact ⟨by trivial, by trivial, rfl, rfl⟩
  · simp only [if_neg h, if_neg (mt key.2 h)]; exact ⟨by trivial, by trivial, rfl, rfl⟩

theorem liftPure {α : Type} (a : α) : Track b (liftM (Pure.pure a : LM Mem ε α)) := ofRes (.ok a)

theorem liftOkOr {α : Type} (o : Option α) (e : ε) : Track b (liftM (LM.okOr o e : LM Mem ε α)) := by
  cases o
  · exact ofRes (.err e)
  · exact ofRes (.ok _)

theorem liftBind {α β : Type} {x : LM Mem ε α} {f : α → LM Mem ε β} (hx : Track b (liftM x))
    (hf : ∀ a, Track b (liftM (f a))) : Track b (liftM (x >>= f)) := by
  rw [liftM_bind]; exact bind hx hf

theorem loadCmdline (a : GuestAddr) (c : Cmdline) : Track b (liftM (loadCmdline a c)) := by
  unfold LinuxLoader.loadCmdline
  exact liftBind (ofRes _) fun _ => liftBind (liftOkOr _ _) fun _ => liftBind (checkLastAddr _) fun _ =>
    writeSliceOr _ _ _

theorem linuxWrite (p : BootParams) : Track b (liftM (linuxWrite p)) := by
  unfold LinuxLoader.linuxWrite
  exact liftBind (checkedOffsetOr _ _ _) fun _ => writeSliceOr _ _ _

theorem fdtWrite (p : BootParams) : Track b (liftM (fdtWrite p)) := by
  unfold LinuxLoader.fdtWrite
  exact liftBind (checkedOffsetOr _ _ _) fun _ => writeSliceOr _ _ _

theorem pvhWrite (p : BootParams) : Track b (liftM (pvhWrite p)) := by
  unfold LinuxLoader.pvhWrite
  refine liftBind (liftOkOr _ _) fun _ => liftBind (liftOkOr _ _) fun _ =>
    liftBind (checkedOffsetOr _ _ _) fun _ => liftBind (writeSliceOr _ _ _) fun _ =>
    liftBind (checkedOffsetOr _ _ _) fun _ => liftBind (writeSliceOr _ _ _) fun _ => ?_
  unfold pvhWriteModules
  split
  · exact liftPure _
  · exact liftBind (liftOkOr _ _) fun _ => writeSliceOr _ _ _

end Track

/-! ## Consequences -/

theorem sameEffect_overwrite (m₁ m₂ : Mem) (w : Nat → Option UInt8) :
    SameEffect m₁ (overwrite m₁ w) m₂ (overwrite m₂ w) := by
  intro x
  unfold overwrite
  cases h : w x with
  | none => left; simp only [h]; exact ⟨rfl, rfl⟩
  | some v => right; simp only [h]; rfl

theorem Track.contents {ε α : Type} {f : LM LS ε α} (h : Track true f) : ContentsIrrelevant f := by
  intro rd m₁ m₂ hs
  obtain ⟨w, h1, h2, h3, h4⟩ := h rd m₁ m₂ (.ofLayout hs) (.inl rfl)
  exact ⟨h1, h2, by rw [h3, h4]; exact sameEffect_overwrite _ _ _⟩

theorem Track.contentsM {ε α : Type} {f : LM Mem ε α} (h : Track true (liftM f)) :
    ContentsIrrelevantM f := by
  intro m₁ m₂ hs
  obtain ⟨h1, -, h2⟩ := h.contents (.cursor []) m₁ m₂ hs
  exact ⟨h1, h2⟩

theorem Track.repeatable {ε α : Type} {f : LM LS ε α} (h : Track true f) : Repeatable f := by
  intro rd m
  obtain ⟨w0, -, -, e3, -⟩ := h rd m m (SameMap.ofLayout ⟨rfl, rfl⟩) (.inl rfl)
  obtain ⟨w, h1, h2, h3, h4⟩ := h rd m (f ⟨rd, m⟩).2.mem (by
    rw [e3]; exact SameMap.ofLayout ⟨rfl, rfl⟩) (.inl rfl)
  refine Prod.ext h1.symm ?_
  have : (f ⟨rd, (f ⟨rd, m⟩).2.mem⟩).2.mem = (f ⟨rd, m⟩).2.mem := by
    rw [h4, h3, overwrite_idem]
  cases hs : (f ⟨rd, m⟩).2
  cases hs2 : (f ⟨rd, (f ⟨rd, m⟩).2.mem⟩).2
  rw [hs] at hs2
  simp only [hs, hs2] at h2 this
  rw [hs2, ← h2, this]

theorem Track.repeatableM {ε α : Type} {f : LM Mem ε α} (h : Track true (liftM f)) :
    RepeatableM f := by
  intro m
  have := h.repeatable (.cursor []) m
  have h1 := congrArg Prod.fst this
  have h2 := congrArg (fun p => p.2.mem) this
  exact Prod.ext h1 h2

theorem Track.regions {ε α : Type} {f : LM LS ε α} (h : Track true f) : RegionsIrrelevant f := by
  intro rd m₁ m₂ hw₁ hw₂ hs hd
  obtain ⟨w, h1, h2, h3, h4⟩ := h rd m₁ m₂ (.ofAddresses hw₁ hw₂ hs) (.inl rfl)
  refine ⟨h1, h2, fun x hx => ?_⟩
  rw [h3, h4]
  unfold overwrite
  dsimp only
  rw [hd x hx]

theorem Track.regionsM {ε α : Type} {f : LM Mem ε α} (h : Track true (liftM f)) :
    RegionsIrrelevantM f := by
  intro m₁ m₂ hw₁ hw₂ hs hd
  obtain ⟨h1, -, h2⟩ := h.regions (.cursor []) m₁ m₂ hw₁ hw₂ hs hd
  exact ⟨h1, h2⟩

theorem Track.more {ε α : Type} {f : LM LS ε α} (h : Track false f) : MoreMemoryHarmless f := by
  intro rd m₁ m₂ r s₁ hw hm hf
  obtain ⟨w, h1, -, h3, h4⟩ := h rd m₁ m₂ ⟨hw, hm⟩ (.inr (by rw [hf]; rfl))
  rw [hf] at h1 h3
  refine ⟨(f ⟨rd, m₂⟩).2, Prod.ext h1.symm rfl, ?_⟩
  dsimp only at h3
  rw [h3, h4]; exact sameEffect_overwrite _ _ _

theorem Track.moreM {ε α : Type} {f : LM Mem ε α} (h : Track false (liftM f)) :
    MoreMemoryHarmlessM f := by
  intro m₁ m₂ r m₁' hw hm hf
  obtain ⟨s₂, h1, h2⟩ := h.more (.cursor []) m₁ m₂ r ⟨.cursor [], m₁'⟩ hw hm (by
    unfold liftM; simp only [hf])
  have e1 : (f m₂).1 = .ok r := congrArg Prod.fst h1
  have e2 : (f m₂).2 = s₂.mem := congrArg (fun p => p.2.mem) h1
  exact ⟨s₂.mem, Prod.ext e1 e2, h2⟩

end LinuxLoader
