import Verif.Model.RegionWalk
import Verif.Lemmas.Memory

/-! # Lemmas about the access loops of vm-memory -/

namespace LinuxLoader
open Spec

theorem findRegion_some {m : Mem} {x : Nat} {r : Region} (h : findRegion m.regions x = some r) :
    r ∈ m.regions ∧ r.start ≤ x ∧ x < r.start + r.len := by
  unfold findRegion at h
  refine ⟨List.mem_of_find?_eq_some h, ?_⟩
  have := List.find?_some h
  simpa using this

theorem findRegion_none {m : Mem} {x : Nat} (h : findRegion m.regions x = none) :
    m.mapped x = false := by
  unfold findRegion at h
  rw [List.find?_eq_none] at h
  cases hm : m.mapped x with
  | false => rfl
  | true =>
    obtain ⟨r, hr, h1⟩ := (Mem.mapped_iff m x).1 hm
    exact absurd (by simpa using h1) (h r hr)

theorem findRegion_mapped {m : Mem} {x : Nat} {r : Region} (h : findRegion m.regions x = some r) :
    Mapped m x (r.start + r.len - x) := by
  obtain ⟨h1, h2, h3⟩ := findRegion_some h
  intro y hy
  unfold InRange at hy
  exact (Mem.mapped_iff m y).2 ⟨r, h1, by omega, by omega⟩

theorem mappedPrefix_split {m : Mem} {a k n : Nat} (hk : k ≤ n) (h : Mapped m a k) :
    m.mappedPrefix a n = k + m.mappedPrefix (a + k) (n - k) := by
  induction k generalizing a n with
  | zero => simp
  | succ k ih =>
    obtain ⟨n, rfl⟩ : ∃ n', n = n' + 1 := ⟨n - 1, by omega⟩
    have h0 : m.mapped a = true := h a ⟨by omega, by omega⟩
    unfold Mem.mappedPrefix
    rw [if_pos h0]
    rw [ih (by omega) fun x hx => h x (by unfold InRange at *; omega)]
    rw [show a + 1 + k = a + (k + 1) by omega, show n + 1 - (k + 1) = n - k by omega]
    cases hnk : n - k with
    | zero => simp [Mem.mappedPrefix]
    | succ j => simp only [Mem.mappedPrefix]; omega

theorem put_append (f : Nat → UInt8) (a : Nat) (xs ys : List UInt8) :
    Mem.put (Mem.put f a xs) (a + xs.length) ys = Mem.put f a (xs ++ ys) := by
  funext x
  unfold Mem.put
  by_cases h1 : a ≤ x
  · rw [if_pos h1]
    by_cases h2 : a + xs.length ≤ x
    · rw [if_pos h2, if_pos h1, List.getElem?_append_right (by omega),
        List.getElem?_eq_none (l := xs) (by omega)]
      rw [show x - (a + xs.length) = x - a - xs.length by omega]
      rfl
    · rw [if_neg h2, if_pos h1, List.getElem?_append_left (by omega)]
  · rw [if_neg h1, if_neg (by omega), if_neg h1]

theorem store_append (m : Mem) (a : Nat) (xs ys : List UInt8) :
    (m.store a xs).store (a + xs.length) ys = m.store a (xs ++ ys) := by
  unfold Mem.store
  simp only [put_append]

theorem store_take (m : Mem) (a : Nat) (bs : List UInt8) (i j : Nat) (hi : i ≤ bs.length) :
    (m.store a (bs.take i)).store (a + i) ((bs.drop i).take j) = m.store a (bs.take (i + j)) := by
  have := store_append m a (bs.take i) ((bs.drop i).take j)
  rw [List.length_take, Nat.min_eq_left hi] at this
  rw [this]
  congr 1
  rw [List.take_add]

theorem tryAccess_write (m : Mem) (bs : List UInt8) (a : Nat) :
    ∀ (fuel total : Nat), (total < bs.length ∨ total = 0) → bs.length - total < fuel →
      tryAccess m.regions bs.length
          (fun total len cur (m : Mem) => (some len, m.store cur ((bs.drop total).take len)))
          fuel (a + total) total (m.store a (bs.take total)) =
        (if total = 0 ∧ m.mapped a = false then none
          else some (total + m.mappedPrefix (a + total) (bs.length - total)),
          m.store a (bs.take (total + m.mappedPrefix (a + total) (bs.length - total)))) := by
  intro fuel
  induction fuel with
  | zero => intro total _ h; omega
  | succ fuel ih =>
    intro total ht hf
    unfold tryAccess
    cases hr : findRegion m.regions (a + total) with
    | none =>
      have hu := findRegion_none hr
      have hmp : m.mappedPrefix (a + total) (bs.length - total) = 0 := by
        cases bs.length - total with
        | zero => rfl
        | succ n => unfold Mem.mappedPrefix; rw [hu]; rfl
      rw [hmp]
      by_cases h0 : total = 0
      · subst h0
        rw [Nat.add_zero] at hu
        rw [if_pos rfl, if_pos ⟨rfl, hu⟩]
      · rw [if_neg h0, if_neg fun hc => h0 hc.1]
        rfl
    | some r =>
      obtain ⟨h1, h2, h3⟩ := findRegion_some hr
      have hmap := findRegion_mapped hr
      dsimp only
      generalize hlen : min (r.start + r.len - (a + total)) (bs.length - total) = len
      have hsplit := mappedPrefix_split (m := m) (a := a + total) (k := len) (n := bs.length - total)
        (by omega) fun x hx => hmap x (by unfold InRange at *; omega)
      have ha : ¬ (total = 0 ∧ m.mapped a = false) := by
        rintro ⟨rfl, h⟩
        have := hmap a ⟨by omega, by omega⟩
        rw [this] at h
        cases h
      rw [if_neg ha, store_take m a bs total len (by omega), hsplit]
      cases len with
      | zero =>
        have : bs.length - total = 0 := by omega
        rw [this]
        rfl
      | succ n =>
        dsimp only
        by_cases hc : total + (n + 1) < bs.length
        · rw [if_pos hc, show a + total + (n + 1) = a + (total + (n + 1)) by omega,
            ih (total + (n + 1)) (.inl hc) (by omega), if_neg (by omega)]
          rw [show bs.length - (total + (n + 1)) = bs.length - total - (n + 1) by omega]
          simp only [Nat.add_assoc]
        · rw [if_neg hc, if_pos (by omega)]
          rw [show bs.length - total - (n + 1) = 0 by omega]
          simp only [Mem.mappedPrefix, Nat.add_zero]
          rw [show total + (n + 1) = bs.length by omega]

theorem getSlices_write (m : Mem) (bs : List UInt8) (a : Nat) :
    ∀ (fuel total : Nat), total ≤ bs.length → bs.length - total < fuel →
      let g := getSlices m.regions fuel (a + total) (bs.length - total)
      writeSlices bs g.1 total (m.store a (bs.take total)) =
        (total + m.mappedPrefix (a + total) (bs.length - total),
          m.store a (bs.take (total + m.mappedPrefix (a + total) (bs.length - total)))) ∧
      (g.1 = [] → g.2 = true → m.mapped (a + total) = false ∧ bs.length - total ≠ 0) := by
  intro fuel
  induction fuel with
  | zero => intro total _ h; omega
  | succ fuel ih =>
    intro total ht hf
    unfold getSlices
    by_cases h0 : bs.length - total = 0
    · simp only [h0, ↓reduceIte, writeSlices, Mem.mappedPrefix, Nat.add_zero, true_and]
      intro _ h; cases h
    · rw [if_neg h0]
      cases hr : findRegion m.regions (a + total) with
      | none =>
        have hu := findRegion_none hr
        obtain ⟨k, hk⟩ : ∃ k, bs.length - total = k + 1 := ⟨bs.length - total - 1, by omega⟩
        rw [hk]
        simp only [writeSlices, Mem.mappedPrefix, hu, Bool.false_eq_true, ↓reduceIte, Nat.add_zero,
          true_and]
        exact fun _ _ => by omega
      | some r =>
        obtain ⟨h1, h2, h3⟩ := findRegion_some hr
        have hmap := findRegion_mapped hr
        dsimp only
        generalize hlen : min (r.start + r.len - (a + total)) (bs.length - total) = len
        have hsplit := mappedPrefix_split (m := m) (a := a + total) (k := len) (n := bs.length - total)
          (by omega) fun x hx => hmap x (by unfold InRange at *; omega)
        refine ⟨?_, fun h => by cases h⟩
        rw [hsplit]
        simp only [writeSlices]
        rw [store_take m a bs total len (by omega)]
        have := (ih (total + len) (by omega) (by omega)).1
        rw [← Nat.add_assoc a, show bs.length - (total + len) = bs.length - total - len by omega] at this
        rw [this, Nat.add_assoc]

theorem writeSliceTry_run (m : Mem) (bs : List UInt8) (a : GuestAddr) :
    writeSliceTry m bs a =
      (m.mappedPrefix a.toNat bs.length == bs.length && (bs.length != 0 || m.mapped a.toNat),
        m.store a.toNat (bs.take (m.mappedPrefix a.toNat bs.length))) := by
  unfold writeSliceTry
  have := tryAccess_write m bs a.toNat (bs.length + 1) 0 (.inr rfl) (by omega)
  simp only [List.take_zero, Mem.store_nil, Nat.add_zero, Nat.zero_add, Nat.sub_zero, true_and] at this
  rw [this]
  dsimp only
  congr 1
  cases hm : m.mapped a.toNat with
  | false =>
    rw [if_pos rfl]
    cases hb : bs.length with
    | zero => rfl
    | succ n =>
      unfold Mem.mappedPrefix
      rw [hm]
      rfl
  | true =>
    rw [if_neg (by simp)]
    simp

theorem writeSliceTry_eq {m : Mem} (h : m.emptyOk = false) (bs : List UInt8) (a : GuestAddr) :
    writeSliceTry m bs a = m.writeSlice bs a := by
  rw [writeSliceTry_run]
  unfold Mem.writeSlice Mem.canAccess
  rw [h, Bool.or_false]

theorem writeSliceIter_run (m : Mem) (bs : List UInt8) (a : GuestAddr) :
    writeSliceIter m bs a = (m.mappedPrefix a.toNat bs.length == bs.length,
        m.store a.toNat (bs.take (m.mappedPrefix a.toNat bs.length))) := by
  unfold writeSliceIter
  have := getSlices_write m bs a.toNat (bs.length + 1) 0 (by omega) (by omega)
  simp only [List.take_zero, Mem.store_nil, Nat.add_zero, Nat.zero_add, Nat.sub_zero] at this
  obtain ⟨h1, h2⟩ := this
  unfold stopOnError
  by_cases hc : (getSlices m.regions (bs.length + 1) a.toNat bs.length).1 = [] ∧
      (getSlices m.regions (bs.length + 1) a.toNat bs.length).2 = true
  · rw [if_pos hc]
    obtain ⟨hu, hne⟩ := h2 hc.1 hc.2
    obtain ⟨n, hn⟩ : ∃ n, bs.length = n + 1 := ⟨bs.length - 1, by omega⟩
    have hmp : m.mappedPrefix a.toNat bs.length = 0 := by
      rw [hn]; unfold Mem.mappedPrefix; rw [hu]; rfl
    rw [hmp, List.take_zero, Mem.store_nil, hn]
    rfl
  · rw [if_neg hc]
    dsimp only
    rw [h1]

theorem writeSliceIter_eq {m : Mem} (h : m.emptyOk = true) (bs : List UInt8) (a : GuestAddr) :
    writeSliceIter m bs a = m.writeSlice bs a := by
  rw [writeSliceIter_run]
  unfold Mem.writeSlice Mem.canAccess
  rw [h, Bool.or_true, Bool.true_or, Bool.and_true]

end LinuxLoader
