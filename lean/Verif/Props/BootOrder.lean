import Verif.Props.MemoryUse

/-!
# The order of the calls (C55)

Vocabulary: `Spec/Boot.lean`.
-/

namespace LinuxLoader
open Spec

/-- Whether a call succeeds depends on the layout of guest memory only. -/
theorem exec_layout (st : BootStep) {m₁ m₂ : Mem} (h : SameLayout m₁ m₂) :
    (st.exec m₁).1 = (st.exec m₂).1 := by
  have := (C66_sequence [st] m₁ m₂ h).2.1
  simp only [bootRun] at this
  rcases h1 : st.exec m₁ with ⟨_ | _, n1⟩ <;> rcases h2 : st.exec m₂ with ⟨_ | _, n2⟩ <;>
    rw [h1, h2] at this <;> first | rfl | cases this

/-- All calls of a sequence succeed if and only if each of them does on the initial memory. -/
theorem bootRun_ok (steps : List BootStep) (had : ∀ st ∈ steps, st.Admissible) (m : Mem) (hw : m.WF) :
    (bootRun steps m).2.1 = true ↔ ∀ st ∈ steps, (st.exec m).1 = true := by
  induction steps generalizing m with
  | nil => exact ⟨(fun _ _ h => nomatch h), fun _ => rfl⟩
  | cons st rest ih =>
    have hs := (exec_spec st (had st (.head _)) m hw).1
    have ih := ih (fun t ht => had t (.tail _ ht)) (st.exec m).2 (WF_layout hs hw)
    unfold bootRun
    rcases he : st.exec m with ⟨b, m₁⟩
    rw [he] at hs ih
    cases b with
    | false =>
      exact ⟨nofun, fun h => by have := h st (.head _); rw [he] at this; cases this⟩
    | true =>
      dsimp only at ih hs ⊢
      rw [ih]
      constructor
      · intro h t ht
        rcases List.mem_cons.1 ht with rfl | ht
        · rw [he]
        · rw [exec_layout t hs]; exact h t ht
      · intro h t ht
        rw [← exec_layout t hs]
        exact h t (.tail _ ht)

theorem lastPiece_flatMap_none {steps : List BootStep} {x : Nat}
    (h : ∀ st ∈ steps, lastPiece st.pieces x = none) : lastPiece (steps.flatMap BootStep.pieces) x = none := by
  induction steps with
  | nil => rfl
  | cons st rest ih =>
    rw [List.flatMap_cons, lastPiece_append', ih fun t ht => h t (.tail _ ht), h st (.head _)]

/-- **C55.** The order of the calls does not matter. In another order the calls succeed if and only if they do in
this one; if their targets are disjoint, guest memory is the same at the end. -/
theorem C55_order (steps steps' : List BootStep) (hp : steps.Perm steps')
    (had : ∀ st ∈ steps, st.Admissible) (m : Mem) (hw : m.WF) :
    (bootRun steps' m).2.1 = (bootRun steps m).2.1 ∧
    (steps.Pairwise BootStep.Disjoint → (bootRun steps m).2.1 = true →
      (bootRun steps' m).2.2 = (bootRun steps m).2.2) := by
  have had' : ∀ st ∈ steps', st.Admissible := fun st h => had st (hp.mem_iff.2 h)
  have hok : (bootRun steps' m).2.1 = (bootRun steps m).2.1 := by
    rw [Bool.eq_iff_iff, bootRun_ok steps had m hw, bootRun_ok steps' had' m hw]
    exact ⟨fun h st hs => h st (hp.mem_iff.1 hs), fun h st hs => h st (hp.mem_iff.2 hs)⟩
  refine ⟨hok, fun hdis h => ?_⟩
  have h' := hok.trans h
  have hdis' : steps'.Pairwise BootStep.Disjoint :=
    (hp.pairwise_iff fun hst x hx => hst x ⟨hx.2, hx.1⟩).1 hdis
  obtain ⟨q1, q2, q3⟩ := C55_sequence steps had m _ hw (Prod.ext h rfl)
  obtain ⟨q1', q2', q3'⟩ := C55_sequence steps' had' m _ hw (Prod.ext h' rfl)
  have i1 := (C55_disjoint steps had m hw hdis).1
  have i2 := (C55_disjoint steps' had' m hw hdis').1
  rw [q1] at i1
  rw [q1'] at i2
  have hd : (bootRun steps' m).2.2.data = (bootRun steps m).2.2.data := by
    funext x
    by_cases hx : ∃ st ∈ steps, ∃ b, lastPiece st.pieces x = some b
    · obtain ⟨st, hs, b, hb⟩ := hx
      rw [i1 st hs x b hb, i2 st (hp.mem_iff.1 hs) x b hb]
    · have hn : ∀ st ∈ steps, lastPiece st.pieces x = none := fun st hs => by
        cases hl : lastPiece st.pieces x with
        | none => rfl
        | some b => exact absurd ⟨st, hs, b, hl⟩ hx
      rw [q3, q3', lastPiece_flatMap_none hn, lastPiece_flatMap_none fun st hs => hn st (hp.mem_iff.2 hs)]
  have e1 : (bootRun steps' m).2.2.regions = (bootRun steps m).2.2.regions := q2'.1.trans q2.1.symm
  have e2 : (bootRun steps' m).2.2.emptyOk = (bootRun steps m).2.2.emptyOk := q2'.2.trans q2.2.symm
  generalize (bootRun steps' m).2.2 = a at hd e1 e2 ⊢
  generalize (bootRun steps m).2.2 = b at hd e1 e2 ⊢
  obtain ⟨r1, d1, f1⟩ := a
  obtain ⟨r2, d2, f2⟩ := b
  dsimp only at hd e1 e2
  subst hd e1 e2
  rfl

/-- The first three calls of `bootSteps` backwards. -/
example := C55_order (bootSteps.take 3) (bootSteps.take 3).reverse (List.reverse_perm _).symm
  (fun st h => bootSteps_ok.1 st (List.mem_of_mem_take h)) bootMem bootMem_wf

example : (bootSteps.take 3).Pairwise BootStep.Disjoint ∧ (bootRun (bootSteps.take 3) bootMem).2.1 = true :=
  ⟨bootSteps_ok.2.2.sublist (List.take_sublist _ _), by decide +kernel⟩

end LinuxLoader
