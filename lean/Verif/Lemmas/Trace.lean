import Verif.Spec.Concurrent
import Verif.Lemmas.RawIo
import Verif.Lemmas.Track

/-! # Lemmas: recorded operations -/

namespace LinuxLoader
open Spec

/-! ## Stored bytes -/

theorem applyWrites_append (k l : Writes) (f : Nat → UInt8) :
    applyWrites (k ++ l) f = applyWrites l (applyWrites k f) := by
  induction k generalizing f with
  | nil => rfl
  | cons p k ih => obtain ⟨a, b⟩ := p; exact ih _

/-- The bytes stored at `x`, in order. -/
def at' (l : Writes) (x : Nat) : Writes := l.filter fun p => p.1 == x

/-- Contents at an address depend only on the bytes stored there. -/
theorem applyWrites_at (l : Writes) (f : Nat → UInt8) (x : Nat) :
    applyWrites l f x = applyWrites (at' l x) f x := by
  induction l generalizing f with
  | nil => rfl
  | cons p l ih =>
    obtain ⟨a, b⟩ := p
    unfold at'
    rw [List.filter_cons]
    by_cases h : a = x
    · subst h
      simp only [beq_self_eq_true, if_true, applyWrites]
      exact ih _
    · have : (a == x) = false := by simpa using h
      simp only [this, Bool.false_eq_true, if_false, applyWrites]
      rw [ih]
      have key : ∀ (k : Writes) (g g' : Nat → UInt8), g x = g' x → applyWrites k g x = applyWrites k g' x := by
        intro k
        induction k with
        | nil => intro g g' h; exact h
        | cons q k ih =>
          intro g g' h
          obtain ⟨c, d⟩ := q
          refine ih _ _ ?_
          show (if x = c then d else g x) = (if x = c then d else g' x)
          rw [h]
      refine key _ _ _ ?_
      simp only [if_neg (Ne.symm h)]

theorem applyWrites_congr_at {k l : Writes} {x : Nat} (h : at' k x = at' l x) (f : Nat → UInt8) :
    applyWrites k f x = applyWrites l f x := by
  rw [applyWrites_at k, applyWrites_at l, h]

theorem applyWrites_base (k : Writes) {g g' : Nat → UInt8} {x : Nat} (h : g x = g' x) :
    applyWrites k g x = applyWrites k g' x := by
  induction k generalizing g g' with
  | nil => exact h
  | cons q k ih =>
    obtain ⟨c, d⟩ := q
    refine ih ?_
    show (if x = c then d else g x) = (if x = c then d else g' x)
    rw [h]

/-- The last byte stored at `x`. -/
def lastAt (l : Writes) (x : Nat) : Option UInt8 := (at' l x).getLast?.map Prod.snd

theorem applyWrites_last (l : Writes) (f : Nat → UInt8) (x : Nat) :
    applyWrites l f x = (lastAt l x).getD (f x) := by
  induction l generalizing f with
  | nil => rfl
  | cons p l ih =>
    obtain ⟨a, b⟩ := p
    show applyWrites l _ x = _
    rw [ih]
    unfold lastAt at'
    rw [List.filter_cons]
    by_cases h : a = x
    · subst h
      simp only [beq_self_eq_true, if_true]
      cases hl : List.filter (fun p => p.1 == a) l with
      | nil => rfl
      | cons q k => rw [List.getLast?_cons_cons]
                    rw [List.getLast?_eq_some_getLast (List.cons_ne_nil q k)]; rfl
    · have : (a == x) = false := by simpa using h
      simp only [this, Bool.false_eq_true, if_false, if_neg (Ne.symm h)]

theorem at'_nil_of_last {l : Writes} {x : Nat} (h : lastAt l x = none) : at' l x = [] := by
  unfold lastAt at h
  cases hl : at' l x with
  | nil => rfl
  | cons q k =>
    rw [hl, List.getLast?_eq_some_getLast (List.cons_ne_nil q k)] at h
    cases h

/-- Storing again changes nothing, if nothing else is stored. -/
theorem applyWrites_again (l : Writes) (f g : Nat → UInt8) (x : Nat)
    (h : g x = f x ∨ at' l x ≠ []) : applyWrites l g x = applyWrites l f x := by
  rw [applyWrites_last l g, applyWrites_last l f]
  cases hl : lastAt l x with
  | some b => rfl
  | none =>
    rcases h with h | h
    · rw [h]
    · exact absurd (at'_nil_of_last hl) h

/-- No address twice in an operation. -/
def DistinctT (t : List Writes) : Prop := ∀ w ∈ t, (w.map Prod.fst).Nodup

theorem storeWrites_ge (a : Nat) (bs : List UInt8) : ∀ p ∈ storeWrites a bs, a ≤ p.1 := by
  induction bs generalizing a with
  | nil => intro p hp; cases hp
  | cons b bs ih =>
    intro p hp
    rcases List.mem_cons.1 hp with rfl | hp
    · exact Nat.le_refl _
    · exact Nat.le_of_succ_le (ih _ p hp)

theorem storeWrites_nodup (a : Nat) (bs : List UInt8) : ((storeWrites a bs).map Prod.fst).Nodup := by
  induction bs generalizing a with
  | nil => exact List.nodup_nil
  | cons b bs ih =>
    refine List.nodup_cons.2 ⟨fun h => ?_, ih _⟩
    obtain ⟨p, hp, rfl⟩ := List.mem_map.1 h
    have := storeWrites_ge _ _ p hp
    omega

theorem applyWrites_store (a : Nat) (bs : List UInt8) (f : Nat → UInt8) :
    applyWrites (storeWrites a bs) f = Mem.put f a bs := by
  induction bs generalizing a f with
  | nil =>
    funext x
    show f x = _
    unfold Mem.put
    split <;> rfl
  | cons b bs ih =>
    show applyWrites (storeWrites (a + 1) bs) _ = _
    rw [ih]
    funext x
    unfold Mem.put
    dsimp only
    by_cases h1 : a + 1 ≤ x
    · rw [if_pos h1, if_pos (by omega : a ≤ x), if_neg (by omega : ¬ x = a)]
      obtain ⟨k, rfl⟩ : ∃ k, x = a + 1 + k := ⟨x - (a + 1), by omega⟩
      rw [show a + 1 + k - (a + 1) = k by omega, show a + 1 + k - a = k + 1 by omega]
      rfl
    · rw [if_neg h1]
      by_cases h2 : x = a
      · subst h2
        rw [if_pos rfl, if_pos (Nat.le_refl _), Nat.sub_self]
        rfl
      · rw [if_neg h2, if_neg (by omega)]

theorem scatterWrites_ge (m : Mem) (w : Nat → Option UInt8) (a n : Nat) :
    ∀ p ∈ scatterWrites m w a n, a ≤ p.1 := by
  induction n generalizing a with
  | zero => intro p hp; cases hp
  | succ n ih =>
    intro p hp
    unfold scatterWrites at hp
    split at hp
    · rcases List.mem_cons.1 hp with rfl | hp
      · exact Nat.le_refl _
      · exact Nat.le_of_succ_le (ih _ p hp)
    · exact Nat.le_of_succ_le (ih _ p hp)

theorem scatterWrites_nodup (m : Mem) (w : Nat → Option UInt8) (a n : Nat) :
    ((scatterWrites m w a n).map Prod.fst).Nodup := by
  induction n generalizing a with
  | zero => exact List.nodup_nil
  | succ n ih =>
    unfold scatterWrites
    split
    · refine List.nodup_cons.2 ⟨fun h => ?_, ih _⟩
      obtain ⟨p, hp, rfl⟩ := List.mem_map.1 h
      have := scatterWrites_ge _ _ _ _ p hp
      omega
    · exact ih _

theorem applyWrites_scatter (m : Mem) (w : Nat → Option UInt8) (a n : Nat) (f : Nat → UInt8) :
    applyWrites (scatterWrites m w a n) f = fun x =>
      if a ≤ x ∧ x < a + n ∧ m.mapped x = true then (w x).getD (f x) else f x := by
  induction n generalizing a f with
  | zero =>
    funext x
    show f x = _
    rw [if_neg (by omega)]
  | succ n ih =>
    unfold scatterWrites
    split
    · rename_i b hm hb
      show applyWrites (scatterWrites m w (a + 1) n) _ = _
      rw [ih]
      funext x
      by_cases h : x = a
      · subst h
        rw [if_neg (by omega), if_pos rfl, if_pos ⟨Nat.le_refl _, by omega, hm⟩, hb]; rfl
      · simp only [if_neg h]
        by_cases h' : a ≤ x ∧ x < a + (n + 1) ∧ m.mapped x = true
        · rw [if_pos h', if_pos ⟨by omega, by omega, h'.2.2⟩]
        · rw [if_neg h', if_neg fun h2 => h' ⟨by omega, by omega, h2.2.2⟩]
    · rename_i hn
      rw [ih]
      funext x
      by_cases h : x = a
      · subst h
        rw [if_neg (by omega)]
        by_cases h' : x ≤ x ∧ x < x + (n + 1) ∧ m.mapped x = true
        · rw [if_pos h']
          cases hw : w x with
          | none => rfl
          | some b => exact absurd hw (hn b h'.2.2)
        · rw [if_neg h']
      · by_cases h' : a ≤ x ∧ x < a + (n + 1) ∧ m.mapped x = true
        · rw [if_pos h', if_pos ⟨by omega, by omega, h'.2.2⟩]
        · rw [if_neg h', if_neg fun h2 => h' ⟨by omega, by omega, h2.2.2⟩]

/-! ## Runs with environment and record -/

/-- Laws of `MState`. -/
class LawfulMState (σ : Type) [MState σ] : Prop where
  set_set : ∀ (g h : Nat → UInt8) (s : σ), MState.setData g (MState.setData h s) = MState.setData g s
  data_set : ∀ (g : Nat → UInt8) (s : σ), MState.data (MState.setData g s) = g
  set_data : ∀ s : σ, MState.setData (MState.data s) s = s

instance : LawfulMState Mem := ⟨fun _ _ _ => rfl, fun _ _ => rfl, fun _ => rfl⟩
instance : LawfulMState LS := ⟨fun _ _ _ => rfl, fun _ _ => rfl, fun _ => rfl⟩

open MState LawfulMState

/-- No environment. -/
def noEnv : Env := fun _ f => f

/-- Whatever memory contains and whatever the environment does, the run with record `y` has the outcome
of the run `x` and stores the same bytes `t`; and these are what `x` does to memory. -/
def Tr {σ ε α : Type} [MState σ] (x : LM σ ε α) (y : Env → LM (TS σ) ε α) : Prop :=
  ∀ s, ∃ t r s₁, DistinctT t ∧ ∀ g,
    x (setData g s) = (r, setData (applyWrites t.flatten g) s₁) ∧
    ∀ env log, ∃ g', y env ⟨setData g s, log⟩ = (r, ⟨setData g' s₁, log ++ t⟩) ∧
      (env = noEnv → g' = applyWrites t.flatten g)

namespace Tr
variable {σ ε α β : Type} [MState σ]

theorem ofRes (r : Res ε α) : Tr (LM.ofRes r : LM σ ε α) (fun _ => LM.ofRes r) := fun s =>
  ⟨[], r, s, fun w hw => (by cases hw), fun g => ⟨rfl, fun env log =>
    ⟨g, by rw [List.append_nil]; rfl, fun _ => rfl⟩⟩⟩

theorem pure (a : α) : Tr (Pure.pure a : LM σ ε α) (fun _ => Pure.pure a) := ofRes (.ok a)

theorem okOr (o : Option α) (e : ε) : Tr (LM.okOr o e : LM σ ε α) (fun _ => LM.okOr o e) := by
  cases o
  · exact ofRes (.err e)
  · exact ofRes (.ok _)

theorem require (c : Bool) (e : ε) : Tr (LM.require c e : LM σ ε Unit) (fun _ => LM.require c e) := by
  cases c
  · exact ofRes (.err e)
  · exact ofRes (.ok _)

theorem bind {x : LM σ ε α} {y : Env → LM (TS σ) ε α} {f : α → LM σ ε β} {h : α → Env → LM (TS σ) ε β}
    (hx : Tr x y) (hf : ∀ a, Tr (f a) (h a)) :
    Tr (x >>= f) (fun env => y env >>= fun a => h a env) := by
  intro s
  obtain ⟨t, r, s₁, hg, hx⟩ := hx s
  cases r with
  | ok a =>
    obtain ⟨t', r', s₂, hg', hf⟩ := hf a s₁
    refine ⟨t ++ t', r', s₂, fun w hw => ?_, fun g => ⟨?_, fun env log => ?_⟩⟩
    · rcases List.mem_append.1 hw with hw | hw
      · exact hg w hw
      · exact hg' w hw
    · rw [LM.bind_ok (hx g).1, (hf _).1, List.flatten_append, applyWrites_append]
    · obtain ⟨g', h1, h2⟩ := (hx g).2 env log
      obtain ⟨g'', h3, h4⟩ := (hf g').2 env (log ++ t)
      refine ⟨g'', ?_, fun he => ?_⟩
      · rw [← List.append_assoc]
        exact (LM.bind_ok h1).trans h3
      · rw [h4 he, h2 he, List.flatten_append, applyWrites_append]
  | err e =>
    refine ⟨t, .err e, s₁, hg, fun g => ⟨LM.bind_err (hx g).1, fun env log => ?_⟩⟩
    obtain ⟨g', h1, h2⟩ := (hx g).2 env log
    exact ⟨g', LM.bind_err h1, h2⟩
  | panic =>
    refine ⟨t, .panic, s₁, hg, fun g => ⟨LM.bind_panic (hx g).1, fun env log => ?_⟩⟩
    obtain ⟨g', h1, h2⟩ := (hx g).2 env log
    exact ⟨g', LM.bind_panic h1, h2⟩

/-- One operation. -/
theorem op [LawfulMState σ] {x : LM σ ε α} {w : σ → Writes}
    (h : ∀ s, ∃ r s₁, ((w s).map Prod.fst).Nodup ∧ ∀ g, w (setData g s) = w s ∧
      x (setData g s) = (r, setData (applyWrites (w s) g) s₁)) :
    Tr x (fun env => traced env w x) := by
  intro s
  obtain ⟨r, s₁, hn, h⟩ := h s
  refine ⟨[w s], r, s₁, fun v hv => by rw [List.mem_singleton.1 hv]; exact hn, fun g => ⟨?_, fun env log => ?_⟩⟩
  · rw [List.flatten_cons, List.flatten_nil, List.append_nil]; exact (h g).2
  · refine ⟨applyWrites (w s) (env log.length g), ?_, fun he => ?_⟩
    · unfold traced
      dsimp only
      rw [data_set, set_set, (h _).1, (h _).2]
    · subst he
      rw [List.flatten_cons, List.flatten_nil, List.append_nil]; rfl

/-- An operation that stores nothing. -/
theorem quiet [LawfulMState σ] {x : LM σ ε α} (h : ∀ s, ∃ r s₁, ∀ g, x (setData g s) = (r, setData g s₁)) :
    Tr x (fun env => traced env (fun _ => []) x) :=
  op fun s => by
    obtain ⟨r, s₁, h⟩ := h s
    exact ⟨r, s₁, List.nodup_nil, fun g => ⟨rfl, h g⟩⟩

end Tr

namespace Tr
variable {ε : Type}

theorem seekStart (p : Nat) (e : ε) : Tr (contractIo.seekStart p e) (fun env => (tracedIo env).seekStart p e) := by
  refine quiet fun s => ⟨(LinuxLoader.seekStart p e s).1, (LinuxLoader.seekStart p e s).2, fun g => ?_⟩
  show LinuxLoader.seekStart p e _ = _
  unfold LinuxLoader.seekStart
  rw [show ioFails (setData g s) = ioFails s from rfl]
  cases ioFails s <;> rfl

theorem seekEnd (e : ε) : Tr (contractIo.seekEnd e) (fun env => (tracedIo env).seekEnd e) := by
  refine quiet fun s => ⟨(LinuxLoader.seekEnd e s).1, (LinuxLoader.seekEnd e s).2, fun g => ?_⟩
  show LinuxLoader.seekEnd e _ = _
  unfold LinuxLoader.seekEnd
  rw [show ioFails (setData g s) = ioFails s from rfl]
  cases ioFails s <;> rfl

theorem seekCur (d : Int) (e : ε) : Tr (contractIo.seekCur d e) (fun env => (tracedIo env).seekCur d e) := by
  refine quiet fun s => ⟨(LinuxLoader.seekCur d e s).1, (LinuxLoader.seekCur d e s).2, fun g => ?_⟩
  show LinuxLoader.seekCur d e _ = _
  unfold LinuxLoader.seekCur
  by_cases h : ioFails s ∨ (s.rd.pos : Int) + d < 0
  · rw [if_pos h, if_pos (show ioFails (setData g s) ∨ ((setData g s).rd.pos : Int) + d < 0 from h)]; rfl
  · rw [if_neg h, if_neg (show ¬ (ioFails (setData g s) ∨ ((setData g s).rd.pos : Int) + d < 0) from h)]; rfl

theorem readExact (n : Nat) (e : ε) : Tr (contractIo.readExact n e) (fun env => (tracedIo env).readExact n e) := by
  refine quiet fun s => ⟨(LinuxLoader.readExact n e s).1, (LinuxLoader.readExact n e s).2, fun g => ?_⟩
  show LinuxLoader.readExact n e _ = _
  unfold LinuxLoader.readExact
  by_cases h : ioFails s ∨ s.rd.rest.length < n
  · rw [if_pos h, if_pos (show ioFails (setData g s) ∨ (setData g s).rd.rest.length < n from h)]; rfl
  · rw [if_neg h, if_neg (show ¬ (ioFails (setData g s) ∨ (setData g s).rd.rest.length < n) from h)]; rfl

theorem readVolatile (n : Nat) (e : ε) :
    Tr (contractIo.readVolatile n e) (fun env => (tracedIo env).readVolatile n e) := by
  refine quiet fun s => ⟨(LinuxLoader.readVolatile n e s).1, (LinuxLoader.readVolatile n e s).2, fun g => ?_⟩
  show LinuxLoader.readVolatile n e _ = _
  unfold LinuxLoader.readVolatile
  rw [show (setData g s).rd = s.rd from rfl]
  cases s.rd.sched s.rd.clock <;> rfl

theorem mappedPrefix_data (m : Mem) (g : Nat → UInt8) (a n : Nat) :
    Mem.mappedPrefix { m with data := g } a n = m.mappedPrefix a n :=
  mappedPrefix_congr (m₁ := m) (m₂ := { m with data := g }) (SameMap.ofLayout ⟨rfl, rfl⟩) _ _

theorem canAccess_data (m : Mem) (g : Nat → UInt8) (a n : Nat) :
    Mem.canAccess { m with data := g } a n = m.canAccess a n :=
  canAccess_congr (m₁ := m) (m₂ := { m with data := g }) (SameMap.ofLayout ⟨rfl, rfl⟩) _ _

theorem scatterWrites_data (m : Mem) (g : Nat → UInt8) (w : Nat → Option UInt8) (a n : Nat) :
    scatterWrites { m with data := g } w a n = scatterWrites m w a n := by
  induction n generalizing a with
  | zero => rfl
  | succ n ih =>
    unfold scatterWrites
    rw [ih]
    rfl

theorem readWrites_data (a n : Nat) (g : Nat → UInt8) (s : LS) :
    readWrites a n (setData g s) = readWrites a n s := by
  unfold readWrites
  rw [show scatterOf (setData g s) = scatterOf s from rfl]
  cases scatterOf s with
  | some w => exact scatterWrites_data _ _ _ _ _
  | none =>
    dsimp only
    rw [show (setData g s).mem = { s.mem with data := g } from rfl, mappedPrefix_data]
    rfl

theorem readIntoMem (a n : Nat) (e : ε) :
    Tr (contractIo.readIntoMem a n e) (fun env => (tracedIo env).readIntoMem a n e) := by
  refine op fun s => ⟨(LinuxLoader.readIntoMem a n e s).1, (LinuxLoader.readIntoMem a n e s).2, ?_, fun g =>
    ⟨readWrites_data _ _ _ _, ?_⟩⟩
  · unfold readWrites
    split
    · exact scatterWrites_nodup _ _ _ _
    · exact storeWrites_nodup _ _
  · show LinuxLoader.readIntoMem a n e _ = _
    unfold LinuxLoader.readIntoMem readWrites
    rw [show scatterOf (setData g s) = scatterOf s from rfl]
    cases scatterOf s with
    | some w =>
      dsimp only
      rw [applyWrites_scatter]
      rfl
    | none =>
      dsimp only
      unfold readPrefix
      rw [show (setData g s).mem = { s.mem with data := g } from rfl, mappedPrefix_data, canAccess_data,
        show ioLimit (setData g s) n = ioLimit s n from rfl, show ioFails (setData g s) = ioFails s from rfl,
        show (setData g s).rd = s.rd from rfl, applyWrites_store]
      dsimp only
      split <;> rfl

theorem notePvh (t n : Nat) : Tr (G.notePvh contractIo t n) (fun env => G.notePvh (tracedIo env) t n) := by
  unfold G.notePvh
  by_cases h : t = 18 ∧ n = 4
  · simp only [if_pos h]
    exact bind (readExact _ _) fun _ => pure _
  · simp only [if_neg h]
    exact pure _

theorem noteLoop (ph : Phdr) (fuel r : Nat) :
    Tr (G.noteLoop contractIo ph fuel r) (fun env => G.noteLoop (tracedIo env) ph fuel r) := by
  induction fuel generalizing r with
  | zero => exact ofRes .panic
  | succ fuel ih =>
    unfold G.noteLoop
    by_cases h : r < ph.filesz
    · simp only [if_pos h]
      refine bind (readExact _ _) fun h => bind (notePvh _ _) fun f => ?_
      cases f with
      | true => exact pure _
      | false =>
        exact bind (ofRes _) fun rs => bind (ofRes _) fun p => bind (seekStart _ _) fun _ => ih rs
    · simp only [if_neg h]
      exact pure _

theorem parseNote (ph : Phdr) : Tr (G.parseNote contractIo ph) (fun env => G.parseNote (tracedIo env) ph) := by
  unfold G.parseNote
  refine bind (seekStart _ _) fun _ => bind (noteLoop _ _ _) fun r => ?_
  cases r with
  | none => exact pure _
  | some n =>
    exact bind (ofRes _) fun na => bind (seekCur _ _) fun _ => bind (require _ _) fun _ =>
      bind (readExact _ _) fun _ => pure _

theorem readPhdrs (n : Nat) : Tr (G.readPhdrs contractIo n) (fun env => G.readPhdrs (tracedIo env) n) := by
  induction n with
  | zero => exact pure _
  | succ n ih => exact bind (readExact _ _) fun _ => bind ih fun _ => pure _

theorem loadSegment (koff : Option GuestAddr) (ph : Phdr) (kend : Nat) :
    Tr (G.loadSegment contractIo koff ph kend) (fun env => G.loadSegment (tracedIo env) koff ph kend) :=
  bind (seekStart _ _) fun _ => bind (okOr _ _) fun _ => bind (readIntoMem _ _ _) fun _ =>
    bind (okOr _ _) fun _ => pure _

theorem loadSegments (koff : Option GuestAddr) (phs : List Phdr) (kend : Nat) (cap : PvhCap) :
    Tr (G.loadSegments contractIo koff phs kend cap)
      (fun env => G.loadSegments (tracedIo env) koff phs kend cap) := by
  induction phs generalizing kend cap with
  | nil => exact pure _
  | cons ph phs ih =>
    unfold G.loadSegments
    by_cases h1 : ph.type ≠ PT_LOAD ∨ ph.filesz = 0
    · simp only [if_pos h1]
      by_cases h2 : ph.type = PT_NOTE
      · simp only [if_pos h2]
        cases koff with
        | some k => exact ih _ _
        | none => exact bind (parseNote _) fun c => ih _ _
      · simp only [if_neg h2]; exact ih _ _
    · simp only [if_neg h1]
      exact bind (loadSegment _ _ _) fun e => ih _ _

theorem elfLoad (koff highmem : Option GuestAddr) :
    Tr (LinuxLoader.elfLoad koff highmem) (fun env => G.elfLoad (tracedIo env) koff highmem) := by
  rw [← same_elfLoad]
  refine bind (seekStart _ _) fun _ => bind (readExact _ _) fun eh => bind (ofRes _) fun _ =>
    bind ?_ fun _ => bind ?_ fun _ => bind (seekStart _ _) fun _ => bind (readPhdrs _) fun _ =>
    bind (loadSegments _ _ _ _) fun _ => pure _
  · cases highmem
    · exact pure _
    · exact require _ _
  · cases koff
    · exact pure _
    · exact okOr _ _

theorem bzLoad (koff highmem : Option GuestAddr) :
    Tr (LinuxLoader.bzLoad koff highmem) (fun env => G.bzLoad (tracedIo env) koff highmem) := by
  rw [← same_bzLoad]
  refine bind (seekEnd _) fun size => bind (seekStart _ _) fun _ => bind (readVolatile _ _) fun h =>
    bind (require _ _) fun _ => bind (require _ _) fun _ => bind (okOr _ _) fun _ =>
    bind (okOr _ _) fun _ => bind ?_ fun _ => bind (seekStart _ _) fun _ =>
    bind (readIntoMem _ _ _) fun _ => bind (okOr _ _) fun _ => pure _
  cases highmem
  · exact pure _
  · exact require _ _

theorem peLoad (arch : PeArch) (koff highmem : Option GuestAddr) :
    Tr (LinuxLoader.peLoad arch koff highmem) (fun env => G.peLoad (tracedIo env) arch koff highmem) := by
  rw [← same_peLoad]
  refine bind (seekEnd _) fun size => bind (seekStart _ _) fun _ => bind (readExact _ _) fun h =>
    bind (require _ _) fun _ => bind ?_ fun _ => bind (okOr _ _) fun _ =>
    bind (seekStart _ _) fun _ => bind (readIntoMem _ _ _) fun _ => bind (okOr _ _) fun _ => pure _
  cases koff
  · exact pure _
  · exact require _ _

theorem loadDtb (a : GuestAddr) :
    Tr (LinuxLoader.loadDtb a) (fun env => G.loadDtb (tracedIo env) a) := by
  rw [← same_loadDtb]
  exact bind (seekEnd _) fun size => bind (require _ _) fun _ => bind (seekStart _ _) fun _ =>
    readIntoMem _ _ _

/-! ### Calls without a reader -/

theorem writeSlice (bs : List UInt8) (a : GuestAddr) (e : ε) :
    Tr (writeSliceOr bs a e) (fun env => (tracedOps env).writeSlice bs a e) := by
  refine op fun s => ⟨(writeSliceOr bs a e s).1, (writeSliceOr bs a e s).2, storeWrites_nodup _ _, fun g => ?_⟩
  have h1 := mappedPrefix_data s g a.toNat bs.length
  have h2 := canAccess_data s g a.toNat bs.length
  refine ⟨?_, ?_⟩
  · unfold sliceWrites
    exact congrArg (fun n => storeWrites a.toNat (bs.take n)) h1
  · unfold writeSliceOr Mem.writeSlice sliceWrites
    rw [applyWrites_store]
    show (match (Mem.canAccess { s with data := g } a.toNat bs.length,
      Mem.store { s with data := g } a.toNat
        (bs.take (Mem.mappedPrefix { s with data := g } a.toNat bs.length))) with
      | (true, m') => (Res.ok (), m')
      | (false, m') => (Res.err e, m')) = _
    rw [h1, h2]
    cases s.canAccess a.toNat bs.length <;> rfl

theorem checkedOffset (a : GuestAddr) (n : Nat) (e : ε) :
    Tr (checkedOffsetOr a n e) (fun env => (tracedOps env).checkedOffset a n e) := by
  refine quiet fun s => ⟨(checkedOffsetOr a n e s).1, (checkedOffsetOr a n e s).2, fun g => ?_⟩
  unfold checkedOffsetOr
  rw [show (setData g s).checkedOffset a n = s.checkedOffset a n from rfl]
  cases s.checkedOffset a n <;> rfl

theorem checkLast (a : GuestAddr) :
    Tr (checkLastAddr a) (fun env => (tracedOps env).checkLast a) := by
  refine quiet fun s => ⟨(checkLastAddr a s).1, (checkLastAddr a s).2, fun g => ?_⟩
  unfold checkLastAddr
  rw [show (setData g s).lastAddr = s.lastAddr from rfl]
  split <;> rfl

theorem loadCmdline (a : GuestAddr) (c : Cmdline) :
    Tr (LinuxLoader.loadCmdline a c) (fun env => G.loadCmdline (tracedOps env) a c) := by
  unfold LinuxLoader.loadCmdline G.loadCmdline
  exact bind (ofRes _) fun _ => bind (okOr _ _) fun _ => bind (checkLast _) fun _ => writeSlice _ _ _

theorem linuxWrite (p : BootParams) :
    Tr (LinuxLoader.linuxWrite p) (fun env => G.linuxWrite (tracedOps env) p) :=
  bind (checkedOffset _ _ _) fun _ => writeSlice _ _ _

theorem fdtWrite (p : BootParams) :
    Tr (LinuxLoader.fdtWrite p) (fun env => G.fdtWrite (tracedOps env) p) :=
  bind (checkedOffset _ _ _) fun _ => writeSlice _ _ _

theorem pvhWrite (p : BootParams) :
    Tr (LinuxLoader.pvhWrite p) (fun env => G.pvhWrite (tracedOps env) p) := by
  refine bind (okOr _ _) fun _ => bind (okOr _ _) fun _ =>
    bind (checkedOffset _ _ _) fun _ => bind (writeSlice _ _ _) fun _ =>
    bind (checkedOffset _ _ _) fun _ => bind (writeSlice _ _ _) fun _ => ?_
  unfold pvhWriteModules G.pvhWriteModules
  cases p.modules with
  | none => exact pure _
  | some ms => exact bind (okOr _ _) fun _ => writeSlice _ _ _

end Tr
end LinuxLoader
