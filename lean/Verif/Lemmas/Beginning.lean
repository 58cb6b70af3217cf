import Verif.Spec.Beginning
import Verif.Props.Boot

namespace LinuxLoader
open Spec

abbrev Pieces := List (Nat × List UInt8)

/-- Storing pieces one after the other, up to some point; `P` is what holds of the pieces that are cut. -/
inductive Begun (P : Nat → List UInt8 → Nat → Prop) : Pieces → Mem → Mem → Prop
  | stop (ps : Pieces) (m : Mem) : Begun P ps m m
  | cut {a : Nat} {bs : List UInt8} {j : Nat} (rest : Pieces) (m : Mem) (h : P a bs j) :
      Begun P ((a, bs) :: rest) m (m.store a (bs.take j))
  | step {a : Nat} {bs : List UInt8} {rest : Pieces} {m m' : Mem} (h : Begun P rest (m.store a bs) m') :
      Begun P ((a, bs) :: rest) m m'

variable {P : Nat → List UInt8 → Nat → Prop}

theorem Begun.append {ps : Pieces} {m m' : Mem} (h : Begun P ps m m') (qs : Pieces) :
    Begun P (ps ++ qs) m m' := by
  induction h with
  | stop => exact .stop _ _
  | cut rest m h => exact .cut _ _ h
  | step _ ih => exact .step ih

theorem begun_after {ps qs : Pieces} {m m' : Mem} (h : Begun P qs (storeAll m ps) m') :
    Begun P (ps ++ qs) m m' := by
  induction ps generalizing m with
  | nil => exact h
  | cons q ps ih => exact .step (ih h)

theorem begun_all (ps : Pieces) (m : Mem) : Begun P ps m (storeAll m ps) := by
  have := begun_after (P := P) (ps := ps) (qs := []) (m := m) (.stop _ _)
  rwa [List.append_nil] at this

theorem storeAll_append (ps qs : Pieces) (m : Mem) :
    storeAll m (ps ++ qs) = storeAll (storeAll m ps) qs := by
  induction ps generalizing m with
  | nil => rfl
  | cons q ps ih => exact ih _

theorem overlaid_storeAll (ps : Pieces) (m : Mem) : Overlaid ps m (storeAll m ps) :=
  ⟨storeAll_layout m ps, storeAll_data m ps⟩

theorem store_nil (m : Mem) (a : Nat) : m.store a [] = m :=
  (Mem.stored_unique ⟨⟨rfl, rfl⟩, fun _ _ h => by simp at h, fun _ _ => rfl⟩).symm

theorem Begun.spec {ps : Pieces} {m m' : Mem} (h : Begun P ps m m') :
    ∃ k j, m' = storeAll m (beginning ps k j) ∧ ∀ q, ps[k]? = some q → j = 0 ∨ P q.1 q.2 j := by
  induction h with
  | stop ps m =>
    refine ⟨0, 0, ?_, fun _ _ => .inl rfl⟩
    cases ps with
    | nil => rfl
    | cons q ps =>
      show m = m.store q.1 (q.2.take 0)
      rw [List.take_zero, store_nil]
  | cut rest m h => exact ⟨0, _, rfl, fun q hq => by cases hq; exact .inr h⟩
  | step _ ih =>
    obtain ⟨k, j, h1, h2⟩ := ih
    exact ⟨k + 1, j, h1, h2⟩

theorem Begun.left {ps : Pieces} {m m' : Mem} (h : Begun P ps m m') : LeftBehind ps m m' := by
  obtain ⟨k, j, rfl, -⟩ := h.spec
  exact ⟨k, j, overlaid_storeAll _ _⟩

theorem Begun.stopped {ps : Pieces} {m m' : Mem} (h : Begun (fun a bs j => Reach m a bs.length j) ps m m') :
    StoppedAt ps m m' := by
  obtain ⟨k, j, rfl, h2⟩ := h.spec
  exact ⟨k, j, overlaid_storeAll _ _, h2⟩

theorem Begun.mono {Q : Nat → List UInt8 → Nat → Prop} {ps : Pieces} {m m' : Mem} (h : Begun P ps m m')
    (hq : ∀ a bs j, P a bs j → Q a bs j) : Begun Q ps m m' := by
  induction h with
  | stop => exact .stop _ _
  | cut rest m h => exact .cut _ _ (hq _ _ _ h)
  | step _ ih => exact .step ih

theorem reach_layout {m m' : Mem} (h : SameLayout m m') {a n j : Nat} : Reach m' a n j ↔ Reach m a n j := by
  obtain ⟨r, d, e⟩ := m
  obtain ⟨r', d', e'⟩ := m'
  obtain ⟨h1, h2⟩ := h
  simp only at h1 h2
  subst h1 h2
  exact Iff.rfl

/-! ## The transfers -/

/-- Nothing is known about where a piece is cut. -/
def anyCut : Nat → List UInt8 → Nat → Prop := fun _ _ _ => True

/-- A piece is cut at unmapped memory only. -/
def unmappedCut (m : Mem) : Nat → List UInt8 → Nat → Prop := fun a bs j => Reach m a bs.length j

theorem reach_prefix (m : Mem) (a n : Nat) : Reach m a n (m.mappedPrefix a n) :=
  ⟨m.mappedPrefix_le a n, m.mapped_of_prefix a n, Mem.prefix_stop⟩

/-- The bytes that a transfer of `n` bytes from `bs` stores before the first unmapped address, when
there are no more than `n`. -/
theorem reach_take (m : Mem) (a n : Nat) (bs : List UInt8) (hn : bs.length ≤ n) :
    ∃ j, Reach m a bs.length j ∧ bs.take (m.mappedPrefix a n) = bs.take j := by
  obtain ⟨h1, h2, h3⟩ := reach_prefix m a n
  by_cases h : bs.length ≤ m.mappedPrefix a n
  · refine ⟨bs.length, ⟨Nat.le_refl _, fun x hx => h2 x ⟨hx.1, by have := hx.2; omega⟩,
      fun h => absurd h (Nat.lt_irrefl _)⟩, ?_⟩
    rw [List.take_of_length_le h, List.take_length]
  · exact ⟨_, ⟨by omega, h2, fun _ => h3 (by omega)⟩, rfl⟩

theorem begun_readIntoMem {ε : Type} (a n : Nat) (e : ε) (s : LS) (hns : NoScatter s) :
    Begun anyCut [(a, s.rd.rest.take n)] s.mem (readIntoMem a n e s).2.mem := by
  rcases readIntoMem_prefix a n e s with ⟨k, hk, he⟩ | ⟨w, hw, -, he⟩
  · rw [he]
    have : s.rd.rest.take k = (s.rd.rest.take n).take k := by rw [List.take_take, Nat.min_eq_left hk]
    rw [this]
    exact .cut _ _ trivial
  · exact absurd hw (hns _ _)

/-- Without faults the transfer goes on up to unmapped memory. -/
theorem readIntoMem_mem {ε : Type} (a n : Nat) (e : ε) (s : LS) (hf : FaultFree s) :
    ∃ j, Reach s.mem a (s.rd.rest.take n).length j ∧
      (readIntoMem a n e s).2.mem = s.mem.store a ((s.rd.rest.take n).take j) := by
  have hsc : scatterOf s = none := by unfold scatterOf; rw [hf]
  rw [readIntoMem_none hsc]
  have hl : ioLimit s n = n := by unfold ioLimit; rw [hf]
  obtain ⟨j, hj, he⟩ := reach_take s.mem a n (s.rd.rest.take n) (by rw [List.length_take]; omega)
  refine ⟨j, hj, ?_⟩
  rw [← he, List.take_take]
  unfold readPrefix
  dsimp only
  rw [hl]
  split <;> rfl

theorem begun_readIntoMem_clean {ε : Type} (a n : Nat) (e : ε) (s : LS) (hf : FaultFree s) :
    Begun (unmappedCut s.mem) [(a, s.rd.rest.take n)] s.mem (readIntoMem a n e s).2.mem := by
  obtain ⟨j, hj, he⟩ := readIntoMem_mem a n e s hf
  rw [he]
  exact .cut _ _ hj

theorem begun_writeSlice (m : Mem) (bs : List UInt8) (a : GuestAddr) :
    Begun (unmappedCut m) [(a.toNat, bs)] m (m.writeSlice bs a).2 :=
  .cut _ _ (reach_prefix m a.toNat bs.length)

end LinuxLoader
