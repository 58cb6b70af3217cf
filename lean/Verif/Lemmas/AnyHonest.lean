import Verif.Lemmas.AnyElf
import Verif.Lemmas.RawIo

/-! # Readers on a file that does not change are among those that may do anything -/

namespace LinuxLoader
open Spec

/-! ## The loaders do the same over related implementations of the operations -/

/-- Related runs: same outcome, related states. -/
def SimR {σ τ ε α : Type} (ρ : σ → τ → Prop) (x : LM σ ε α) (y : LM τ ε α) : Prop :=
  ∀ s t, ρ s t → (y t).1 = (x s).1 ∧ ρ (x s).2 (y t).2

namespace SimR
variable {σ τ ε α β : Type} {ρ : σ → τ → Prop}

theorem ofRes (r : Res ε α) : SimR ρ (LM.ofRes r) (LM.ofRes r) := fun _ _ h => ⟨rfl, h⟩

theorem pure (a : α) : SimR (ε := ε) ρ (Pure.pure a) (Pure.pure a) := ofRes (.ok a)

theorem okOr (o : Option α) (e : ε) : SimR ρ (LM.okOr o e) (LM.okOr o e) := by
  cases o with
  | none => exact ofRes (.err e)
  | some a => exact ofRes (.ok a)

theorem require (b : Bool) (e : ε) : SimR ρ (LM.require b e) (LM.require b e) := by
  cases b with
  | false => exact ofRes (.err e)
  | true => exact ofRes (.ok ())

theorem bind {x : LM σ ε α} {y : LM τ ε α} {f : α → LM σ ε β} {g : α → LM τ ε β} (hx : SimR ρ x y)
    (hf : ∀ a, SimR ρ (f a) (g a)) : SimR ρ (x >>= f) (y >>= g) := fun s t h => by
  obtain ⟨h1, h2⟩ := hx s t h
  rcases hxs : x s with ⟨r, s₁⟩
  rcases hyt : y t with ⟨r', t₁⟩
  rw [hxs, hyt] at h1 h2
  simp only at h1 h2
  subst h1
  cases r' with
  | ok a => rw [LM.bind_ok hxs, LM.bind_ok hyt]; exact hf a s₁ t₁ h2
  | err e => rw [LM.bind_err hxs, LM.bind_err hyt]; exact ⟨rfl, h2⟩
  | panic => rw [LM.bind_panic hxs, LM.bind_panic hyt]; exact ⟨rfl, h2⟩

end SimR

/-- The operations are related. -/
structure IoSim {σ τ : Type} (ρ : σ → τ → Prop) (io : Io σ) (io' : Io τ) : Prop where
  seekStart : ∀ {ε : Type} p (e : ε), SimR ρ (io.seekStart p e) (io'.seekStart p e)
  seekEnd : ∀ {ε : Type} (e : ε), SimR ρ (io.seekEnd e) (io'.seekEnd e)
  seekCur : ∀ {ε : Type} d (e : ε), SimR ρ (io.seekCur d e) (io'.seekCur d e)
  readExact : ∀ {ε : Type} n (e : ε), SimR ρ (io.readExact n e) (io'.readExact n e)
  readVolatile : ∀ {ε : Type} n (e : ε), SimR ρ (io.readVolatile n e) (io'.readVolatile n e)
  readIntoMem : ∀ {ε : Type} a n (e : ε), SimR ρ (io.readIntoMem a n e) (io'.readIntoMem a n e)

namespace IoSim
variable {σ τ : Type} {ρ : σ → τ → Prop} {io : Io σ} {io' : Io τ}

theorem notePvh (h : IoSim ρ io io') (t n : Nat) : SimR ρ (G.notePvh io t n) (G.notePvh io' t n) := by
  unfold G.notePvh
  split
  · exact .bind (h.readExact _ _) fun _ => .pure _
  · exact .pure _

theorem noteLoop (h : IoSim ρ io io') (ph : Phdr) : ∀ fuel r,
    SimR ρ (G.noteLoop io ph fuel r) (G.noteLoop io' ph fuel r)
  | 0, _ => .ofRes _
  | fuel + 1, r => by
    unfold G.noteLoop
    split
    · refine .bind (h.readExact _ _) fun _ => .bind (h.notePvh _ _) fun f => ?_
      cases f with
      | true => exact .pure _
      | false =>
        exact .bind (.ofRes _) fun rs => .bind (.ofRes _) fun p => .bind (h.seekStart _ _) fun _ =>
          noteLoop h ph fuel rs
    · exact .pure _

theorem parseNote (h : IoSim ρ io io') (ph : Phdr) : SimR ρ (G.parseNote io ph) (G.parseNote io' ph) := by
  unfold G.parseNote
  refine .bind (h.seekStart _ _) fun _ => .bind (h.noteLoop ph _ _) fun r => ?_
  cases r with
  | none => exact .pure _
  | some n =>
    exact .bind (.ofRes _) fun _ => .bind (h.seekCur _ _) fun _ => .bind (.require _ _) fun _ =>
      .bind (h.readExact _ _) fun _ => .pure _

theorem readPhdrs (h : IoSim ρ io io') : ∀ n, SimR ρ (G.readPhdrs io n) (G.readPhdrs io' n)
  | 0 => .pure _
  | n + 1 => by
    unfold G.readPhdrs
    exact .bind (h.readExact _ _) fun _ => .bind (readPhdrs h n) fun _ => .pure _

theorem loadSegments (h : IoSim ρ io io') (koff : Option GuestAddr) : ∀ phs kend cap,
    SimR ρ (G.loadSegments io koff phs kend cap) (G.loadSegments io' koff phs kend cap)
  | [], _, _ => .pure _
  | ph :: phs, kend, cap => by
    unfold G.loadSegments
    split
    · split
      · cases koff with
        | some k => exact loadSegments h _ phs _ _
        | none => exact .bind (h.parseNote ph) fun _ => loadSegments h _ phs _ _
      · exact loadSegments h _ phs _ _
    · refine .bind ?_ fun _ => loadSegments h _ phs _ _
      unfold G.loadSegment
      exact .bind (h.seekStart _ _) fun _ => .bind (.okOr _ _) fun _ => .bind (h.readIntoMem _ _ _) fun _ =>
        .bind (.okOr _ _) fun _ => .pure _

theorem elfLoad (h : IoSim ρ io io') (koff highmem : Option GuestAddr) :
    SimR ρ (G.elfLoad io koff highmem) (G.elfLoad io' koff highmem) := by
  unfold G.elfLoad
  refine .bind (h.seekStart _ _) fun _ => .bind (h.readExact _ _) fun _ => .bind (.ofRes _) fun _ =>
    .bind ?_ fun _ => .bind ?_ fun _ => .bind (h.seekStart _ _) fun _ => .bind (h.readPhdrs _) fun _ =>
    .bind (h.loadSegments _ _ _ _) fun _ => .pure _
  · cases highmem with
    | none => exact .pure _
    | some q => exact .require _ _
  · cases koff with
    | none => exact .pure _
    | some q => exact .okOr _ _

theorem bzLoad (h : IoSim ρ io io') (koff highmem : Option GuestAddr) :
    SimR ρ (G.bzLoad io koff highmem) (G.bzLoad io' koff highmem) := by
  unfold G.bzLoad G.bzRest
  refine .bind (h.seekEnd _) fun _ => .bind (h.seekStart _ _) fun _ => .bind (h.readVolatile _ _) fun _ =>
    .bind (.require _ _) fun _ => .bind (.require _ _) fun _ => .bind (.okOr _ _) fun _ => .bind (.okOr _ _) fun _ =>
    .bind ?_ fun _ => .bind (h.seekStart _ _) fun _ => .bind (h.readIntoMem _ _ _) fun _ =>
    .bind (.okOr _ _) fun _ => .pure _
  cases highmem with
  | none => exact .pure _
  | some q => exact .require _ _

theorem peLoad (h : IoSim ρ io io') (arch : PeArch) (koff highmem : Option GuestAddr) :
    SimR ρ (G.peLoad io arch koff highmem) (G.peLoad io' arch koff highmem) := by
  unfold G.peLoad
  refine .bind (h.seekEnd _) fun _ => .bind (h.seekStart _ _) fun _ => .bind (h.readExact _ _) fun _ =>
    .bind (.require _ _) fun _ => .bind ?_ fun _ => .bind (.okOr _ _) fun _ => .bind (h.seekStart _ _) fun _ =>
    .bind (h.readIntoMem _ _ _) fun _ => .bind (.okOr _ _) fun _ => .pure _
  cases koff with
  | none => exact .pure _
  | some q => exact .require _ _

theorem loadDtb (h : IoSim ρ io io') (a : GuestAddr) : SimR ρ (G.loadDtb io a) (G.loadDtb io' a) := by
  unfold G.loadDtb
  exact .bind (h.seekEnd _) fun _ => .bind (.require _ _) fun _ => .bind (h.seekStart _ _) fun _ =>
    h.readIntoMem _ _ _

end IoSim

/-! ## The reader that replays a file -/

/-- The request on a file: did it work, and the state afterwards. -/
def honestStep (s : LS) : RdOp → Bool × LS
  | .seekStart p => let r := seekStart (ε := Unit) p () s; (r.1.isOk, r.2)
  | .seekEnd => let r := seekEnd (ε := Unit) () s; (r.1.isOk, r.2)
  | .seekCur d => let r := seekCur (ε := Unit) d () s; (r.1.isOk, r.2)
  | .readExact n => let r := readExact (ε := Unit) n () s; (r.1.isOk, r.2)
  | .readVolatile n => let r := readVolatile (ε := Unit) n () s; (r.1.isOk, r.2)
  | .readIntoMem a n => let r := readIntoMem (ε := Unit) a n () s; (r.1.isOk, r.2)

/-- The state after some requests. -/
def honestAfter (s : LS) (ops : List RdOp) : LS := ops.foldl (fun s o => (honestStep s o).2) s

/-- The bytes delivered. -/
def honestBytes (s : LS) : RdOp → List UInt8
  | .readExact n => match (readExact (ε := Unit) n () s).1 with | .ok b => b | _ => []
  | .readVolatile n => match (readVolatile (ε := Unit) n () s).1 with | .ok b => b | _ => []
  | _ => []

/-- The reader on the file of `s`. -/
def honestReader (s : LS) : AnyReader where
  fails ops o := !(honestStep (honestAfter s ops) o).1
  size _ := UInt64.ofNat s.rd.data.length
  byte ops o i := (honestBytes (honestAfter s ops) o)[i]?.getD 0
  stored ops o x := some ((honestStep (honestAfter s ops) o).2.mem.data x)

/-- The state of the file, and of the reader that replays it. -/
def Replays (s₀ s : LS) (t : AnyState) : Prop :=
  t.mem = s.mem ∧ honestAfter s₀ t.ops = s ∧ s.rd.data = s₀.rd.data

theorem ops_add (t : AnyState) (o : RdOp) (a : Answer) : (t.add o a).ops = t.ops ++ [o] := by
  simp [AnyState.ops, AnyState.add]

theorem honestAfter_add (s : LS) (ops : List RdOp) (o : RdOp) :
    honestAfter s (ops ++ [o]) = (honestStep (honestAfter s ops) o).2 := by
  simp [honestAfter]

/-- One request that does not write to memory. -/
theorem replays_add {s₀ s : LS} {t : AnyState} (h : Replays s₀ s t) (o : RdOp) (a : Answer)
    (hm : (honestStep s o).2.mem = s.mem) (hd : (honestStep s o).2.rd.data = s.rd.data) :
    Replays s₀ (honestStep s o).2 (t.add o a) := by
  refine ⟨?_, ?_, ?_⟩
  · rw [hm]; exact h.1
  · rw [ops_add, honestAfter_add, h.2.1]
  · rw [hd, h.2.2]

theorem range_map_getD (l : List UInt8) : (List.range l.length).map (fun i => l[i]?.getD 0) = l := by
  apply List.ext_getElem
  · simp
  · intro i h1 h2
    simp [h2]

theorem store_eq_scatter (m : Mem) (a n : Nat) (bs : List UInt8) (hn : bs.length ≤ n)
    (hm : ∀ x, InRange a bs.length x → m.mapped x = true) :
    m.scatter a n (fun x => some ((m.store a bs).data x)) = m.store a bs := by
  unfold Mem.scatter Mem.store
  congr 1
  funext x
  simp only [Option.getD_some]
  by_cases hx : a ≤ x ∧ x < a + n ∧ m.mapped x = true
  · rw [if_pos hx]
  · rw [if_neg hx]
    by_cases hy : a ≤ x ∧ x < a + bs.length
    · exact absurd ⟨hy.1, by omega, hm x ⟨hy.1, hy.2⟩⟩ hx
    · exact ((Mem.stored_store m a bs).2.2 x hy).symm

theorem honestSim (s₀ : LS) (hlen : s₀.rd.data.length < U64) :
    IoSim (Replays s₀) contractIo (anyIo (honestReader s₀)) where
  seekStart p e := fun s t h => by
    have hf : (honestReader s₀).fails t.ops (.seekStart p) = ioFails s := by
      show (!(honestStep (honestAfter s₀ t.ops) (.seekStart p)).1) = _
      rw [h.2.1]
      simp only [honestStep, seekStart]
      cases hh : ioFails s <;> rfl
    have hst : ∀ a, Replays s₀ (honestStep s (.seekStart p)).2 (t.add (.seekStart p) a) := fun a =>
      replays_add h _ _ (by simp only [honestStep, seekStart]; split <;> rfl)
        (by simp only [honestStep, seekStart]; split <;> rfl)
    simp only [honestStep, seekStart] at hst
    show ((anySeek (honestReader s₀) (.seekStart p) e) t).1 = (seekStart p e s).1 ∧
      Replays s₀ (seekStart p e s).2 ((anySeek (honestReader s₀) (.seekStart p) e) t).2
    unfold anySeek seekStart
    rw [hf]
    cases hh : ioFails s
    · simp only [hh] at hst; exact ⟨rfl, hst _⟩
    · simp only [hh] at hst; exact ⟨rfl, hst _⟩
  seekCur p e := fun s t h => by
    have hf : (honestReader s₀).fails t.ops (.seekCur p) = decide (ioFails s ∨ (s.rd.pos : Int) + p < 0) := by
      show (!(honestStep (honestAfter s₀ t.ops) (.seekCur p)).1) = _
      rw [h.2.1]
      simp only [honestStep, seekCur]
      by_cases hh : ioFails s = true ∨ (s.rd.pos : Int) + p < 0
      · rw [if_pos hh, decide_eq_true hh]; rfl
      · rw [if_neg hh, decide_eq_false hh]; rfl
    have hst : ∀ a, Replays s₀ (honestStep s (.seekCur p)).2 (t.add (.seekCur p) a) := fun a =>
      replays_add h _ _ (by simp only [honestStep, seekCur]; split <;> rfl)
        (by simp only [honestStep, seekCur]; split <;> rfl)
    simp only [honestStep, seekCur] at hst
    show ((anySeek (honestReader s₀) (.seekCur p) e) t).1 = (seekCur p e s).1 ∧
      Replays s₀ (seekCur p e s).2 ((anySeek (honestReader s₀) (.seekCur p) e) t).2
    unfold anySeek seekCur
    rw [hf]
    by_cases hh : ioFails s = true ∨ (s.rd.pos : Int) + p < 0
    · rw [decide_eq_true hh]
      simp only [if_pos hh] at hst ⊢
      exact ⟨rfl, hst _⟩
    · rw [decide_eq_false hh]
      simp only [if_neg hh] at hst ⊢
      exact ⟨rfl, hst _⟩
  seekEnd e := fun s t h => by
    have hf : (honestReader s₀).fails t.ops .seekEnd = ioFails s := by
      show (!(honestStep (honestAfter s₀ t.ops) .seekEnd).1) = _
      rw [h.2.1]
      simp only [honestStep, seekEnd]
      cases hh : ioFails s <;> rfl
    have hst : ∀ a, Replays s₀ (honestStep s .seekEnd).2 (t.add .seekEnd a) := fun a =>
      replays_add h _ _ (by simp only [honestStep, seekEnd]; split <;> rfl)
        (by simp only [honestStep, seekEnd]; split <;> rfl)
    simp only [honestStep, seekEnd] at hst
    have hsz : ((honestReader s₀).size t.ops).toNat = s.rd.data.length := by
      rw [h.2.2]
      show (UInt64.ofNat _).toNat = _
      rw [UInt64.toNat_ofNat']
      exact Nat.mod_eq_of_lt hlen
    show ((anySeekEnd (honestReader s₀) e) t).1 = (seekEnd e s).1 ∧
      Replays s₀ (seekEnd e s).2 ((anySeekEnd (honestReader s₀) e) t).2
    unfold anySeekEnd seekEnd
    rw [hf, hsz]
    cases hh : ioFails s
    · simp only [hh] at hst; exact ⟨rfl, hst _⟩
    · simp only [hh] at hst; exact ⟨rfl, hst _⟩
  readExact n e := fun s t h => by
    have hf : (honestReader s₀).fails t.ops (.readExact n) = decide (ioFails s ∨ s.rd.rest.length < n) := by
      show (!(honestStep (honestAfter s₀ t.ops) (.readExact n)).1) = _
      rw [h.2.1]
      simp only [honestStep, readExact]
      by_cases hh : ioFails s = true ∨ s.rd.rest.length < n
      · rw [if_pos hh, decide_eq_true hh]; rfl
      · rw [if_neg hh, decide_eq_false hh]; rfl
    have hst : ∀ a, Replays s₀ (honestStep s (.readExact n)).2 (t.add (.readExact n) a) := fun a =>
      replays_add h _ _ (by simp only [honestStep, readExact]; split <;> rfl)
        (by simp only [honestStep, readExact]; split <;> rfl)
    simp only [honestStep, readExact] at hst
    show ((anyRead (honestReader s₀) (.readExact n) n e) t).1 = (readExact n e s).1 ∧
      Replays s₀ (readExact n e s).2 ((anyRead (honestReader s₀) (.readExact n) n e) t).2
    unfold anyRead readExact
    rw [hf]
    by_cases hh : ioFails s = true ∨ s.rd.rest.length < n
    · rw [decide_eq_true hh]
      simp only [if_pos hh] at hst ⊢
      exact ⟨rfl, hst _⟩
    · rw [decide_eq_false hh]
      simp only [if_neg hh] at hst ⊢
      have hb : (List.range n).map ((honestReader s₀).byte t.ops (.readExact n)) = s.rd.rest.take n := by
        have hl : (s.rd.rest.take n).length = n := by rw [List.length_take]; omega
        have : (honestReader s₀).byte t.ops (.readExact n) = fun i => (s.rd.rest.take n)[i]?.getD 0 := by
          funext i
          show (honestBytes (honestAfter s₀ t.ops) (.readExact n))[i]?.getD 0 = _
          rw [h.2.1]
          simp only [honestBytes, readExact, if_neg hh]
        rw [this]
        have := range_map_getD (s.rd.rest.take n)
        rwa [hl] at this
      rw [hb]
      exact ⟨rfl, hst _⟩
  readVolatile n e := fun s t h => by
    have key : ∀ {ε : Type} (e : ε),
        (ioFails s = true ∧ readVolatile n e s = (.err e, { s with rd := s.rd.tick s.rd.pos })) ∨
        (ioFails s = false ∧ ∃ b s', b.length = n ∧ s'.mem = s.mem ∧ s'.rd.data = s.rd.data ∧
          ∀ {ε : Type} (e : ε), readVolatile n e s = (.ok b, s')) := by
      intro ε e
      unfold readVolatile ioFails
      cases hev : s.rd.sched s.rd.clock with
      | fail k => exact .inl ⟨rfl, rfl⟩
      | scatter w => exact .inl ⟨rfl, rfl⟩
      | short k =>
        refine .inr ⟨rfl, _, _, ?_, ?_, ?_, fun e => rfl⟩
        · simp only [List.length_append, List.length_replicate, List.length_take]; omega
        · rfl
        · rfl
      | ok =>
        refine .inr ⟨rfl, _, _, ?_, ?_, ?_, fun e => rfl⟩
        · simp only [List.length_append, List.length_replicate, List.length_take]; omega
        · rfl
        · rfl
    have hst : ∀ a, Replays s₀ (honestStep s (.readVolatile n)).2 (t.add (.readVolatile n) a) := by
      intro a
      refine replays_add h _ _ ?_ ?_
      · rcases key () with ⟨-, hr⟩ | ⟨-, b, s', -, h1, -, hr⟩
        · simp only [honestStep, hr]
        · simp only [honestStep, hr]; exact h1
      · rcases key () with ⟨-, hr⟩ | ⟨-, b, s', -, -, h1, hr⟩
        · simp only [honestStep, hr]; rfl
        · simp only [honestStep, hr]; exact h1
    show ((anyRead (honestReader s₀) (.readVolatile n) n e) t).1 = (readVolatile n e s).1 ∧
      Replays s₀ (readVolatile n e s).2 ((anyRead (honestReader s₀) (.readVolatile n) n e) t).2
    have hf : (honestReader s₀).fails t.ops (.readVolatile n) = ioFails s := by
      show (!(honestStep (honestAfter s₀ t.ops) (.readVolatile n)).1) = _
      rw [h.2.1]
      rcases key () with ⟨hf, hr⟩ | ⟨hf, b, s', -, -, -, hr⟩
      · simp only [honestStep, hr, hf]; rfl
      · simp only [honestStep, hr, hf]; rfl
    unfold anyRead
    rw [hf]
    rcases key e with ⟨hf, hr⟩ | ⟨hf, b, s', hl, -, -, hr⟩
    · rw [hf, hr]
      have hr' : readVolatile n () s = (.err (), { s with rd := s.rd.tick s.rd.pos }) := by
        rcases key () with ⟨-, hr⟩ | ⟨hf', -⟩
        · exact hr
        · rw [hf] at hf'; cases hf'
      have := hst .failed
      simp only [honestStep, hr'] at this
      exact ⟨rfl, this⟩
    · rw [hf, hr]
      have hb : (List.range n).map ((honestReader s₀).byte t.ops (.readVolatile n)) = b := by
        have : (honestReader s₀).byte t.ops (.readVolatile n) = fun i => b[i]?.getD 0 := by
          funext i
          show (honestBytes (honestAfter s₀ t.ops) (.readVolatile n))[i]?.getD 0 = _
          rw [h.2.1]
          simp only [honestBytes, hr]
        rw [this]
        have := range_map_getD b
        rwa [hl] at this
      have := hst (.bytes b)
      simp only [honestStep, hr] at this
      rw [if_neg (by simp), hb]
      exact ⟨rfl, this⟩
  readIntoMem a n e := fun s t h => by
    have key : ∃ (ok : Bool) (s' : LS), s'.rd.data = s.rd.data ∧
        (s.mem.scatter a n fun x => some (s'.mem.data x)) = s'.mem ∧
        (ok = true → s.mem.canAccess a n = true) ∧
        ∀ {ε : Type} (e : ε), readIntoMem a n e s = (if ok then .ok () else .err e, s') := by
      unfold readIntoMem
      cases hsc : scatterOf s with
      | some w =>
        refine ⟨false, _, ?_, ?_, (fun h => nomatch h), fun e => rfl⟩
        · rfl
        · unfold Mem.scatter
          congr 1
          funext x
          by_cases hx : a ≤ x ∧ x < a + n ∧ s.mem.mapped x = true
          · rw [if_pos hx, Option.getD_some]
          · rw [if_neg hx, if_neg hx]
      | none =>
        refine ⟨decide ((s.rd.rest.take (min (s.mem.mappedPrefix a n) (ioLimit s n))).length = n ∧
          ioFails s = false ∧ s.mem.canAccess a n),
          ⟨s.rd.tick (s.rd.pos + (s.rd.rest.take (min (s.mem.mappedPrefix a n) (ioLimit s n))).length),
            s.mem.store a (s.rd.rest.take (min (s.mem.mappedPrefix a n) (ioLimit s n)))⟩, ?_, ?_, fun hd => (of_decide_eq_true hd).2.2, fun e => ?_⟩
        rotate_right
        · simp only [readPrefix]
          by_cases hc : (s.rd.rest.take (min (s.mem.mappedPrefix a n) (ioLimit s n))).length = n ∧
            ioFails s = false ∧ s.mem.canAccess a n = true
          · rw [if_pos hc, decide_eq_true hc]; rfl
          · rw [if_neg hc, decide_eq_false hc]; rfl
        · rfl
        · refine store_eq_scatter _ _ _ _ ?_ fun x hx => ?_
          · rw [List.length_take]
            have : s.mem.mappedPrefix a n ≤ n := Mem.mappedPrefix_le _ _ _
            omega
          · have hx2 := hx.2
            rw [List.length_take] at hx2
            exact Mem.mapped_of_prefix s.mem a n x ⟨hx.1, by omega⟩
    obtain ⟨ok, s', hd, hsc, hok, hr⟩ := key
    have hr' := hr ()
    have hstep : honestStep s (.readIntoMem a n) = (ok, s') := by
      simp only [honestStep, hr']
      cases ok <;> rfl
    have hf : (honestReader s₀).fails t.ops (.readIntoMem a n) = !ok := by
      show (!(honestStep (honestAfter s₀ t.ops) (.readIntoMem a n)).1) = _
      rw [h.2.1, hstep]
    have hstored : (honestReader s₀).stored t.ops (.readIntoMem a n) = fun x => some (s'.mem.data x) := by
      funext x
      show some ((honestStep (honestAfter s₀ t.ops) (.readIntoMem a n)).2.mem.data x) = _
      rw [h.2.1, hstep]
    have hst : ∀ ans, Replays s₀ s' (({ t with mem := s'.mem } : AnyState).add (.readIntoMem a n) ans) := by
      intro ans
      refine ⟨rfl, ?_, by rw [hd, h.2.2]⟩
      rw [ops_add, honestAfter_add]
      have : honestAfter s₀ ({ t with mem := s'.mem } : AnyState).ops = s := h.2.1
      rw [this, hstep]
    show ((anyTransfer (honestReader s₀) a n e) t).1 = (readIntoMem a n e s).1 ∧
      Replays s₀ (readIntoMem a n e s).2 ((anyTransfer (honestReader s₀) a n e) t).2
    unfold anyTransfer
    rw [hstored, hf, hr, h.1, hsc]
    cases ok with
    | true =>
      simp only
      rw [if_pos ⟨rfl, hok rfl⟩]
      exact ⟨rfl, hst _⟩
    | false =>
      simp only
      rw [if_neg (fun hc => nomatch hc.1)]
      exact ⟨rfl, hst _⟩

/-- A file of less than `2^63` bytes. -/
theorem honest_fileLike {s : LS} (h : s.rd.data.length < ISZ) : FileLike (honestReader s) := by
  intro ops p n hp hn
  have hdata : ∀ (ops : List RdOp) (s : LS), (honestAfter s ops).rd.data = s.rd.data := by
    intro ops
    induction ops with
    | nil => intro s; rfl
    | cons o ops ih =>
      intro s
      have : (honestAfter s (o :: ops)).rd.data = ((honestStep s o).2).rd.data := ih _
      rw [this]
      cases o with
      | seekStart p => simp only [honestStep, seekStart]; split <;> rfl
      | seekEnd => simp only [honestStep, seekEnd]; split <;> rfl
      | seekCur d => simp only [honestStep, seekCur]; split <;> rfl
      | readExact n => simp only [honestStep, readExact]; split <;> rfl
      | readVolatile n => simp only [honestStep, readVolatile]; split <;> rfl
      | readIntoMem a n =>
        simp only [honestStep, readIntoMem]
        split
        · rfl
        · simp only [readPrefix]; split <;> rfl
  by_cases hf : ioFails (honestAfter s ops) = true
  · left
    show (!(honestStep (honestAfter s ops) (.seekStart p)).1) = true
    simp only [honestStep, seekStart, hf]
    rfl
  · right
    show (!(honestStep (honestAfter s (ops ++ [.seekStart p])) (.readExact n)).1) = true
    rw [honestAfter_add]
    simp only [honestStep, seekStart, if_neg hf, readExact]
    rw [if_pos]
    · rfl
    · right
      show ((honestAfter s ops).rd.data.drop p).length < n
      rw [hdata, List.length_drop]
      unfold ISZ at h
      omega

theorem replays_start (s : LS) : Replays s s ⟨s.mem, []⟩ := ⟨rfl, rfl, rfl⟩

end LinuxLoader
