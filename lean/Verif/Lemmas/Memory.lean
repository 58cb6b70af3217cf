import Verif.Spec.Memory
import Verif.Model.LoadCmdline

/-! # Lemmas about guest memory -/

namespace LinuxLoader
open Spec

namespace LM
variable {σ ε α β : Type}

theorem bind_def (x : LM σ ε α) (f : α → LM σ ε β) (s : σ) :
    (x >>= f) s = match x s with
      | (.ok a, s') => f a s'
      | (.err e, s') => (.err e, s')
      | (.panic, s') => (.panic, s') := rfl

@[simp] theorem pure_apply (a : α) (s : σ) : (Pure.pure a : LM σ ε α) s = (.ok a, s) := rfl
@[simp] theorem pure'_apply (a : α) (s : σ) : (LM.pure a : LM σ ε α) s = (.ok a, s) := rfl
@[simp] theorem throw_apply (e : ε) (s : σ) : (LM.throw e : LM σ ε α) s = (.err e, s) := rfl
@[simp] theorem ofRes_apply (r : Res ε α) (s : σ) : (LM.ofRes r : LM σ ε α) s = (r, s) := rfl
@[simp] theorem okOr_some (a : α) (e : ε) : (LM.okOr (some a) e : LM σ ε α) = LM.pure a := rfl
@[simp] theorem okOr_none (e : ε) : (LM.okOr none e : LM σ ε α) = LM.throw e := rfl
@[simp] theorem require_true (e : ε) : (LM.require true e : LM σ ε Unit) = LM.pure () := rfl
@[simp] theorem require_false (e : ε) : (LM.require false e : LM σ ε Unit) = LM.throw e := rfl

theorem bind_ok {x : LM σ ε α} {f : α → LM σ ε β} {s s' : σ} {a} (h : x s = (.ok a, s')) :
    (x >>= f) s = f a s' := by rw [bind_def, h]
theorem bind_err {x : LM σ ε α} {f : α → LM σ ε β} {s s' : σ} {e} (h : x s = (.err e, s')) :
    (x >>= f) s = (.err e, s') := by rw [bind_def, h]
theorem bind_panic {x : LM σ ε α} {f : α → LM σ ε β} {s s' : σ} (h : x s = (.panic, s')) :
    (x >>= f) s = (.panic, s') := by rw [bind_def, h]

/-- Inversion of a successful sequence. -/
theorem bind_eq_ok {x : LM σ ε α} {f : α → LM σ ε β} {s s' : σ} {b} :
    (x >>= f) s = (.ok b, s') ↔ ∃ a s₁, x s = (.ok a, s₁) ∧ f a s₁ = (.ok b, s') := by
  rw [bind_def]
  constructor
  · intro h
    rcases hx : x s with ⟨r, s₁⟩
    rw [hx] at h
    cases r with
    | ok a => exact ⟨a, s₁, rfl, h⟩
    | err e => cases h
    | panic => cases h
  · rintro ⟨a, s₁, h1, h2⟩; rw [h1]; exact h2

theorem require_eq_ok {c : Bool} {e : ε} {s s' : σ} {u} :
    (LM.require c e : LM σ ε Unit) s = (.ok u, s') ↔ c = true ∧ s' = s := by
  cases c with
  | false => simp
  | true => simp [eq_comm]

theorem okOr_eq_ok {o : Option α} {e : ε} {s s' : σ} {a} :
    (LM.okOr o e : LM σ ε α) s = (.ok a, s') ↔ o = some a ∧ s' = s := by
  cases o with
  | none => simp
  | some b => simp [eq_comm]

end LM

namespace Mem

theorem mapped_iff (m : Mem) (x : Nat) :
    m.mapped x = true ↔ ∃ r ∈ m.regions, r.start ≤ x ∧ x < r.start + r.len := by
  simp [mapped, List.any_eq_true]

theorem mapped_lt {m : Mem} (h : m.WF) {x : Nat} (hx : m.mapped x = true) : x < U64 - 1 := by
  obtain ⟨r, hr, h1, h2⟩ := (m.mapped_iff x).1 hx
  have := (h.1 r hr).2
  omega

theorem mappedPrefix_le (m : Mem) (a n : Nat) : m.mappedPrefix a n ≤ n := by
  induction n generalizing a with
  | zero => simp [mappedPrefix]
  | succ n ih =>
    unfold mappedPrefix
    split
    · have := ih (a + 1); omega
    · omega

theorem mapped_of_prefix (m : Mem) (a n : Nat) : Mapped m a (m.mappedPrefix a n) := by
  induction n generalizing a with
  | zero => intro x hx; unfold InRange mappedPrefix at hx; omega
  | succ n ih =>
    unfold mappedPrefix
    split
    · rename_i h
      intro x hx
      by_cases hxa : x = a
      · rw [hxa]; exact h
      · exact ih (a + 1) x (by unfold InRange at hx ⊢; omega)
    · intro x hx; unfold InRange at hx; omega

theorem prefix_full {m : Mem} {a n : Nat} (h : Mapped m a n) : m.mappedPrefix a n = n := by
  induction n generalizing a with
  | zero => rfl
  | succ n ih =>
    unfold mappedPrefix
    rw [if_pos (h a (by unfold InRange; omega)), ih]
    intro x hx
    exact h x (by unfold InRange at hx ⊢; omega)

theorem prefix_eq_iff {m : Mem} {a n : Nat} : m.mappedPrefix a n = n ↔ Mapped m a n :=
  ⟨fun h => h ▸ mapped_of_prefix m a n, prefix_full⟩

theorem prefix_stop {m : Mem} {a n : Nat} (h : m.mappedPrefix a n < n) :
    m.mapped (a + m.mappedPrefix a n) = false := by
  induction n generalizing a with
  | zero => omega
  | succ n ih =>
    unfold mappedPrefix at h ⊢
    split
    · rename_i hm
      rw [if_pos hm] at h
      have := ih (a := a + 1) (by omega)
      rw [show a + (m.mappedPrefix (a + 1) n + 1) = a + 1 + m.mappedPrefix (a + 1) n by omega]
      exact this
    · rename_i hm
      simpa using hm

theorem canAccess_iff {m : Mem} {a n : Nat} : m.canAccess a n = true ↔ Accessible m a n := by
  unfold canAccess Accessible
  simp only [Bool.and_eq_true, beq_iff_eq, Bool.or_eq_true, bne_iff_ne, prefix_eq_iff]
  constructor
  · rintro ⟨h1, h2⟩
    refine ⟨h1, fun h0 => ?_⟩
    rcases h2 with (h | h) | h
    · exact absurd h0 h
    · exact .inl h
    · exact .inr h
  · rintro ⟨h1, h2⟩
    refine ⟨h1, ?_⟩
    by_cases h0 : n = 0
    · rcases h2 h0 with h | h
      · exact .inl (.inr h)
      · exact .inr h
    · exact .inl (.inl h0)

@[simp] theorem mapped_store (m : Mem) (a bs x) : (m.store a bs).mapped x = m.mapped x := rfl
@[simp] theorem regions_store (m : Mem) (a bs) : (m.store a bs).regions = m.regions := rfl
@[simp] theorem emptyOk_store (m : Mem) (a bs) : (m.store a bs).emptyOk = m.emptyOk := rfl

theorem put_nil (f : Nat → UInt8) (a : Nat) : put f a [] = f := by
  funext x; unfold put; split <;> simp

theorem store_nil (m : Mem) (a : Nat) : m.store a [] = m := by
  unfold store; rw [put_nil]

theorem put_in {f : Nat → UInt8} {a : Nat} {bs : List UInt8} {i : Nat} {b : UInt8}
    (h : bs[i]? = some b) : put f a bs (a + i) = b := by
  unfold put
  rw [if_pos (by omega), show a + i - a = i by omega, h]; rfl

theorem put_out {f : Nat → UInt8} {a : Nat} {bs : List UInt8} {x : Nat}
    (h : ¬ InRange a bs.length x) : put f a bs x = f x := by
  unfold put
  unfold InRange at h
  split
  · rw [List.getElem?_eq_none (by omega)]; rfl
  · rfl

theorem stored_store (m : Mem) (a : Nat) (bs : List UInt8) : Stored m (m.store a bs) a bs :=
  ⟨⟨rfl, rfl⟩, fun _ _ h => put_in h, fun _ h => put_out h⟩

/-- `Stored` determines the new memory. -/
theorem stored_unique {m m' : Mem} {a : Nat} {bs : List UInt8} (h : Stored m m' a bs) :
    m' = m.store a bs := by
  obtain ⟨⟨h1, h2⟩, h3, h4⟩ := h
  have hd : m'.data = (m.store a bs).data := by
    funext x
    show m'.data x = put m.data a bs x
    by_cases hx : InRange a bs.length x
    · unfold InRange at hx
      have hget : bs[x - a]? = some (bs[x - a]'(by omega)) := List.getElem?_eq_getElem (by omega)
      have e : a + (x - a) = x := by omega
      have := h3 _ _ hget
      rw [e] at this
      have h5 := put_in (f := m.data) (a := a) hget
      rw [e] at h5
      rw [this, h5]
    · rw [h4 x hx, put_out hx]
  cases m'; cases m
  simp only at h1 h2 hd
  subst h1 h2
  simp only [store] at hd ⊢
  rw [hd]

theorem Stored_iff {m m' : Mem} {a : Nat} {bs : List UInt8} :
    Stored m m' a bs ↔ m' = m.store a bs :=
  ⟨stored_unique, fun h => h ▸ stored_store m a bs⟩

theorem writeSlice_spec (m : Mem) (bs : List UInt8) (a : GuestAddr) :
    ((m.writeSlice bs a).1 = true ↔ Accessible m a.toNat bs.length) ∧
    ((m.writeSlice bs a).1 = true → (m.writeSlice bs a).2 = m.store a.toNat bs) ∧
    PrefixStored m (m.writeSlice bs a).2 a.toNat bs := by
  refine ⟨canAccess_iff, ?_, ?_⟩
  · intro h
    have := (canAccess_iff.1 h).1
    show m.store _ (bs.take (m.mappedPrefix _ _)) = _
    rw [prefix_full this, List.take_length]
  · exact ⟨_, mappedPrefix_le _ _ _, mapped_of_prefix _ _ _, stored_store _ _ _⟩

theorem foldl_max_ge (l : List Region) (acc : Nat) :
    acc ≤ l.foldl (fun acc r => max acc (r.start + r.len - 1)) acc ∧
    ∀ r ∈ l, r.start + r.len - 1 ≤ l.foldl (fun acc r => max acc (r.start + r.len - 1)) acc := by
  induction l generalizing acc with
  | nil => simp
  | cons s l ih =>
    have := ih (max acc (s.start + s.len - 1))
    simp only [List.foldl_cons]
    refine ⟨by omega, ?_⟩
    intro r hr
    rw [List.mem_cons] at hr
    rcases hr with rfl | hr
    · omega
    · exact this.2 r hr

theorem foldl_max_attained (l : List Region) (acc : Nat) :
    l.foldl (fun acc r => max acc (r.start + r.len - 1)) acc = acc ∨
    ∃ r ∈ l, l.foldl (fun acc r => max acc (r.start + r.len - 1)) acc = r.start + r.len - 1 := by
  induction l generalizing acc with
  | nil => simp
  | cons s l ih =>
    simp only [List.foldl_cons]
    rcases ih (max acc (s.start + s.len - 1)) with h | ⟨r, hr, h⟩
    · rw [h]
      by_cases hc : s.start + s.len - 1 ≤ acc
      · left; omega
      · right; exact ⟨s, by simp, by omega⟩
    · right; exact ⟨r, by simp [hr], h⟩

theorem le_lastAddr {m : Mem} {x : Nat} (hx : m.mapped x = true) : x ≤ m.lastAddr := by
  obtain ⟨r, hr, h1, h2⟩ := (m.mapped_iff x).1 hx
  have := (foldl_max_ge m.regions 0).2 r hr
  unfold lastAddr; omega

theorem lastAddr_eq {m : Mem} (h : m.WF) {L : Nat} (hL : IsLast m L) : m.lastAddr = L := by
  have h1 := le_lastAddr hL.1
  rcases foldl_max_attained m.regions 0 with h0 | ⟨r, hr, h0⟩
  · unfold lastAddr at *; omega
  · have hlen := (h.1 r hr).1
    have : m.mapped m.lastAddr = true := by
      rw [mapped_iff]; exact ⟨r, hr, by unfold lastAddr; omega, by unfold lastAddr; omega⟩
    exact Nat.le_antisymm (hL.2 _ this) h1

theorem exists_last {m : Mem} (h : m.WF) (hne : m.regions ≠ []) : ∃ L, IsLast m L := by
  refine ⟨m.lastAddr, ?_, fun x hx => le_lastAddr hx⟩
  rcases foldl_max_attained m.regions 0 with h0 | ⟨r, hr, h0⟩
  · cases hreg : m.regions with
    | nil => exact absurd hreg hne
    | cons r l =>
      have hr : r ∈ m.regions := by rw [hreg]; simp
      have h1 := (foldl_max_ge m.regions 0).2 r hr
      have h2 := (h.1 r hr).1
      rw [mapped_iff]
      exact ⟨r, hr, by unfold lastAddr; omega, by unfold lastAddr; omega⟩
  · have hlen := (h.1 r hr).1
    rw [mapped_iff]; exact ⟨r, hr, by unfold lastAddr; omega, by unfold lastAddr; omega⟩

end Mem

theorem addrAddNat_eq (a : UInt64) (n : Nat) :
    addrAddNat a n = if a.toNat + n < U64 then some (UInt64.ofNat (a.toNat + n)) else none := rfl

theorem toNat_ofNat_lt {n : Nat} (h : n < U64) : (UInt64.ofNat n).toNat = n := by
  rw [UInt64.toNat_ofNat']; unfold U64 at h; omega

theorem addrAddNat_some {a : UInt64} {n : Nat} {e : UInt64} :
    addrAddNat a n = some e ↔ e.toNat = a.toNat + n := by
  rw [addrAddNat_eq]
  constructor
  · intro h
    split at h
    · rename_i hlt; cases h; exact toNat_ofNat_lt hlt
    · cases h
  · intro h
    have := UInt64.toNat_lt e
    rw [if_pos (by unfold U64; omega), ← h]
    simp

theorem addrAddNat_none {a : UInt64} {n : Nat} :
    addrAddNat a n = none ↔ U64 ≤ a.toNat + n := by
  rw [addrAddNat_eq]
  split <;> simp <;> omega

/-- `checked_offset` succeeds iff the byte *after* the range is mapped. -/
theorem checkedOffset_some {m : Mem} (h : m.WF) {a : GuestAddr} {n : Nat} :
    (∃ e, m.checkedOffset a n = some e) ↔ m.mapped (a.toNat + n) = true := by
  unfold Mem.checkedOffset
  constructor
  · rintro ⟨e, he⟩
    cases hx : addrAddNat a n with
    | none => rw [hx] at he; cases he
    | some e' =>
      rw [hx] at he
      simp only at he
      rw [← addrAddNat_some.1 hx]
      split at he
      · assumption
      · cases he
  · intro hm
    have hlt := Mem.mapped_lt h hm
    have hx : addrAddNat a n = some (UInt64.ofNat (a.toNat + n)) := by
      rw [addrAddNat_eq, if_pos (by omega)]
    rw [hx]
    refine ⟨UInt64.ofNat (a.toNat + n), ?_⟩
    simp only
    rw [toNat_ofNat_lt (by omega), if_pos hm]

theorem checkedOffset_none {m : Mem} (h : m.WF) {a : GuestAddr} {n : Nat} :
    m.checkedOffset a n = none ↔ m.mapped (a.toNat + n) = false := by
  have := checkedOffset_some h (a := a) (n := n)
  cases hx : m.checkedOffset a n with
  | none =>
    rw [hx] at this
    simp only [reduceCtorEq, exists_false, false_iff, Bool.not_eq_true] at this
    simp [this]
  | some e =>
    rw [hx] at this
    have h1 := this.1 ⟨e, rfl⟩
    simp [h1]

theorem writeSliceOr_eq {ε : Type} (bs : List UInt8) (a : GuestAddr) (e : ε) (m : Mem) :
    writeSliceOr bs a e m =
      (if m.canAccess a.toNat bs.length then .ok () else .err e, (m.writeSlice bs a).2) := by
  unfold writeSliceOr Mem.writeSlice
  cases m.canAccess a.toNat bs.length <;> rfl

theorem checkedOffsetOr_eq {ε : Type} (a : GuestAddr) (n : Nat) (e : ε) (m : Mem) :
    checkedOffsetOr a n e m = ((match m.checkedOffset a n with
      | some a => .ok a | none => .err e), m) := by
  unfold checkedOffsetOr
  cases m.checkedOffset a n <;> rfl

/-! ## Pieces -/

theorem lastPiece_concat (l : List (Nat × List UInt8)) (a : Nat) (bs : List UInt8) (x : Nat) :
    lastPiece (l ++ [(a, bs)]) x =
      match (if a ≤ x then bs[x - a]? else none) with
      | some b => some b
      | none => lastPiece l x := by
  induction l with
  | nil =>
    simp only [List.nil_append, lastPiece]
    cases (if a ≤ x then bs[x - a]? else none) <;> rfl
  | cons p l ih =>
    obtain ⟨b, cs⟩ := p
    simp only [List.cons_append, lastPiece, ih]
    cases h : (if a ≤ x then bs[x - a]? else none) <;> simp

theorem lastPiece_append (l : List (Nat × List UInt8)) (a : Nat) (bs : List UInt8) (x : Nat)
    (f : Nat → UInt8) :
    (lastPiece (l ++ [(a, bs)]) x).getD (f x) =
      Mem.put (fun y => (lastPiece l y).getD (f y)) a bs x := by
  rw [lastPiece_concat]
  unfold Mem.put
  by_cases hax : a ≤ x
  · simp only [hax, ↓reduceIte]
    cases hb : bs[x - a]? <;> simp
  · simp [hax]

end LinuxLoader
