import Verif.Spec.Complete
import Verif.Lemmas.BeginningLoad

/-! # Lemmas for C114: a complete specification has one solution -/

namespace LinuxLoader
open Spec

theorem firstObstacle_total {ε : Type} (l : List (ε × Prop)) : ∃ r, FirstObstacle l r := by
  induction l with
  | nil => exact ⟨_, .none⟩
  | cons o l ih =>
    obtain ⟨e, P⟩ := o
    by_cases h : P
    · exact ⟨_, .here h⟩
    · obtain ⟨r, hr⟩ := ih
      exact ⟨r, .later h hr⟩

theorem firstObstacle_append_cases {ε : Type} {l l' : List (ε × Prop)} {e : ε} (h : FirstObstacle (l ++ l') (some e)) :
    FirstObstacle l (some e) ∨ (FirstObstacle l none ∧ FirstObstacle l' (some e)) := by
  obtain ⟨r, hr⟩ := firstObstacle_total l
  cases r with
  | none =>
    obtain ⟨r', hr'⟩ := firstObstacle_total l'
    have := firstObstacle_unique h (firstObstacle_append_none hr hr')
    exact .inr ⟨hr, this ▸ hr'⟩
  | some e' =>
    have := firstObstacle_unique h (firstObstacle_append_some (l' := l') hr)
    exact .inl (this ▸ hr)

theorem firstObstacle_flatMap {ε α : Type} {f : α → List (ε × Prop)} {l : List α} {e : ε}
    (h : FirstObstacle (l.flatMap f) (some e)) :
    ∃ pre a post, l = pre ++ a :: post ∧ FirstObstacle (pre.flatMap f) none ∧ FirstObstacle (f a) (some e) := by
  induction l with
  | nil => cases h
  | cons a l ih =>
    rw [List.flatMap_cons] at h
    rcases firstObstacle_append_cases h with h | ⟨hn, h⟩
    · exact ⟨[], a, l, rfl, .none, h⟩
    · obtain ⟨pre, b, post, rfl, hp, hb⟩ := ih h
      refine ⟨a :: pre, b, post, rfl, ?_, hb⟩
      rw [List.flatMap_cons]
      exact firstObstacle_append_none hn hp

theorem overlaid_eq {ps : List (Nat × List UInt8)} {m m₁ m₂ : Mem} (h₁ : Overlaid ps m m₁) (h₂ : Overlaid ps m m₂) :
    m₁ = m₂ := by
  rw [overlaid_unique h₁, overlaid_unique h₂]

theorem reach_eq {m : Mem} {a n j k : Nat} (hj : Reach m a n j) (hk : Reach m a n k) : j = k := by
  obtain ⟨j1, j2, j3⟩ := hj
  obtain ⟨k1, k2, k3⟩ := hk
  rcases Nat.lt_trichotomy j k with h | h | h
  · have := k2 (a + j) ⟨by omega, by omega⟩
    rw [j3 (by omega)] at this
    cases this
  · exact h
  · have := j2 (a + k) ⟨by omega, by omega⟩
    rw [k3 (by omega)] at this
    cases this

theorem beginning_beyond {ps : List (Nat × List UInt8)} {k : Nat} (h : ps[k]? = none) (i j : Nat) :
    beginning ps k i = beginning ps k j := by
  unfold beginning
  rw [List.drop_eq_nil_of_le (List.getElem?_eq_none_iff.1 h)]
  rfl

theorem leftExactly_eq {ps : List (Nat × List UInt8)} {k : Nat} {cut : Prop} {m m₁ m₂ : Mem}
    (h₁ : LeftExactly ps k cut m m₁) (h₂ : LeftExactly ps k cut m m₂) : m₁ = m₂ := by
  obtain ⟨i, a1, a2, a3⟩ := h₁
  obtain ⟨j, b1, b2, b3⟩ := h₂
  by_cases hc : cut
  · cases hq : ps[k]? with
    | none =>
      rw [beginning_beyond hq i j] at a1
      exact overlaid_eq a1 b1
    | some q =>
      rw [reach_eq (a2 hc q hq) (b2 hc q hq)] at a1
      exact overlaid_eq a1 b1
  · rw [a3 hc] at a1
    rw [b3 hc] at b1
    exact overlaid_eq a1 b1

/-- A specification whose value and whose remains are determined has at most one solution. -/
theorem doneRight_unique {ε α : Type} {obs : List (ε × Prop)} {value : α → Prop} {ps : List (Nat × List UInt8)}
    {left : ε → Mem → Prop} {m : Mem} (hv : ∀ r q, value r → value q → r = q)
    (hl : ∀ e, FirstObstacle obs (some e) → ∀ m₁ m₂, left e m₁ → left e m₂ → m₁ = m₂)
    {r₁ r₂ : Res ε α} {m₁ m₂ : Mem} (h₁ : DoneRight obs value ps left m r₁ m₁)
    (h₂ : DoneRight obs value ps left m r₂ m₂) : r₁ = r₂ ∧ m₁ = m₂ := by
  obtain ⟨o, ho⟩ := firstObstacle_total obs
  cases o with
  | none =>
    obtain ⟨a, rfl, ha, oa⟩ := h₁.succeeds ho
    obtain ⟨b, rfl, hb, ob⟩ := h₂.succeeds ho
    exact ⟨by rw [hv a b ha hb], overlaid_eq oa ob⟩
  | some e =>
    obtain ⟨rfl, la⟩ := h₁.fails e ho
    obtain ⟨rfl, lb⟩ := h₂.fails e ho
    exact ⟨rfl, hl e ho _ _ la lb⟩

/-- The form in which the theorems are stated: what the call returns and leaves behind is the only solution. -/
theorem doneRight_iff {ε α : Type} {obs : List (ε × Prop)} {value : α → Prop} {ps : List (Nat × List UInt8)}
    {left : ε → Mem → Prop} {m : Mem} {r₀ : Res ε α} {m₀ : Mem} (hv : ∀ r q, value r → value q → r = q)
    (hl : ∀ e, FirstObstacle obs (some e) → ∀ m₁ m₂, left e m₁ → left e m₂ → m₁ = m₂)
    (h : DoneRight obs value ps left m r₀ m₀) (r : Res ε α) (m' : Mem) :
    DoneRight obs value ps left m r m' ↔ r = r₀ ∧ m' = m₀ := by
  refine ⟨fun h' => doneRight_unique hv hl h' h, ?_⟩
  rintro ⟨rfl, rfl⟩
  exact h

/-- The same when what is left behind is given exactly. -/
theorem doneRight_exactly {ε α : Type} {obs : List (ε × Prop)} {value : α → Prop} {ps : List (Nat × List UInt8)}
    {k : ε → Nat} {cut : ε → Prop} {m : Mem} {r₀ : Res ε α} {m₀ : Mem} (hv : ∀ r q, value r → value q → r = q)
    (h : DoneRight obs value ps (fun e => LeftExactly ps (k e) (cut e) m) m r₀ m₀) (r : Res ε α) (m' : Mem) :
    DoneRight obs value ps (fun e => LeftExactly ps (k e) (cut e) m) m r m' ↔ r = r₀ ∧ m' = m₀ :=
  doneRight_iff (left := fun e => LeftExactly ps (k e) (cut e) m) hv (fun _ _ _ _ h₁ h₂ => leftExactly_eq h₁ h₂) h r m'

end LinuxLoader
