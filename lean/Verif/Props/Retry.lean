import Verif.Spec.Retry
import Verif.Props.BootOrder
import Verif.Props.SameProgram

/-!
# C108: trying again

Whatever failed attempts have left in guest memory, the attempt that succeeds leaves no trace of them.
-/

namespace LinuxLoader
open Spec

theorem sameCall_targets {s t : BootStep} (h : SameCall s t) {x : Nat} (hx : s.Targets x) : t.Targets x := by
  cases s <;> cases t <;> simp only [SameCall] at h <;> first
    | (obtain ⟨rfl, h1, rfl, rfl⟩ := h
       simp only [BootStep.Targets, BootStep.pieces] at hx ⊢
       rw [← h1]; exact hx)
    | (obtain ⟨h1, rfl, rfl⟩ := h
       simp only [BootStep.Targets, BootStep.pieces] at hx ⊢
       rw [← h1]; exact hx)
    | (obtain ⟨h1, rfl⟩ := h
       simp only [BootStep.Targets, BootStep.pieces] at hx ⊢
       rw [← h1]; exact hx)
    | (cases h; done)
    | (cases h; exact hx)

/-- A call that succeeds fills its target completely. -/
theorem pieces_of_targets {st : BootStep} (had : st.Admissible) {m : Mem} (hok : (st.exec m).1 = true)
    {x : Nat} (hx : st.Targets x) : ∃ b, lastPiece st.pieces x = some b := by
  have key : InPieces st.pieces x := by
    cases st with
    | elf rd k h =>
      obtain ⟨r, hr⟩ := isOk_iff.1 hok
      obtain ⟨ho, -, -⟩ := elfLoad_ok (s := ⟨rd, m⟩) had (Prod.ext hr rfl)
      obtain ⟨g, hg, hr⟩ := hx
      obtain ⟨h1, -⟩ := loadable_facts ho g hg
      refine ⟨_, List.mem_map.2 ⟨g, hg, rfl⟩, ?_⟩
      have : (g.contents rd.data).length = g.filesz := by
        unfold Phdr.contents
        simp only [List.length_take, List.length_drop]
        change g.offset + g.filesz ≤ rd.data.length at h1
        omega
      show InRange _ (g.contents rd.data).length x
      rw [this]; exact hr
    | _ => exact hx
  cases h : lastPiece st.pieces x with
  | some b => exact ⟨b, rfl⟩
  | none => exact absurd h (lastPiece_ne_none.2 key)

theorem lastPiece_flatMap_some {steps : List BootStep} {x : Nat} {st : BootStep} (hst : st ∈ steps)
    {b : UInt8} (h : lastPiece st.pieces x = some b) :
    ∃ c, lastPiece (steps.flatMap BootStep.pieces) x = some c := by
  have key : InPieces (steps.flatMap BootStep.pieces) x := by
    obtain ⟨q, hq, hr⟩ := lastPiece_some_in h
    exact ⟨q, List.mem_flatMap.2 ⟨st, hst, hq⟩, hr⟩
  cases h' : lastPiece (steps.flatMap BootStep.pieces) x with
  | some c => exact ⟨c, rfl⟩
  | none => exact absurd h' (lastPiece_ne_none.2 key)

theorem sameLayout_trans {m m' m'' : Mem} (h : SameLayout m m') (h' : SameLayout m' m'') : SameLayout m m'' :=
  ⟨h'.1.trans h.1, h'.2.trans h.2⟩

theorem mem_eq {m m' : Mem} (h : SameLayout m m') (hd : ∀ x, m'.data x = m.data x) : m' = m := by
  obtain ⟨r, d, e⟩ := m
  obtain ⟨r', d', e'⟩ := m'
  obtain ⟨h1, h2⟩ := h
  have : d' = d := funext hd
  simp only at h1 h2
  rw [h1, h2, this]

theorem afterAttempts_frame (attempts : List (List BootStep))
    (had : ∀ steps ∈ attempts, ∀ st ∈ steps, st.Admissible) (m : Mem) (hw : m.WF) :
    SameLayout m (afterAttempts attempts m) ∧
    ∀ x, (∀ steps ∈ attempts, ∀ st ∈ steps, ¬ st.Targets x) → (afterAttempts attempts m).data x = m.data x := by
  induction attempts generalizing m with
  | nil => exact ⟨⟨rfl, rfl⟩, fun _ _ => rfl⟩
  | cons steps rest ih =>
    obtain ⟨f1, -, f3⟩ := bootRun_frame steps (had steps (by simp)) m hw
    obtain ⟨i1, i2⟩ := ih (fun t ht => had t (by simp [ht])) (bootRun steps m).2.2 (WF_layout f1 hw)
    refine ⟨sameLayout_trans f1 i1, fun x hx => ?_⟩
    exact (i2 x fun t ht => hx t (by simp [ht])).trans (f3 x (hx steps (by simp)))

/-- **C108.** Any number of attempts, each making some of the calls of a boot sequence in some order with
readers that fail however they like, and stopping at its first failure: afterwards the sequence has the
outcome it would have had without them, and if it succeeds, guest memory is, at every address, what it
would have been without them. -/
theorem C108_retry (attempts : List (List BootStep)) (steps : List BootStep)
    (had : ∀ st ∈ steps, st.Admissible) (had' : ∀ a ∈ attempts, ∀ st ∈ a, st.Admissible)
    (hsame : ∀ a ∈ attempts, ∀ st ∈ a, ∃ t ∈ steps, SameCall st t) (m : Mem) (hw : m.WF) :
    (bootRun steps (afterAttempts attempts m)).2.1 = (bootRun steps m).2.1 ∧
    ((bootRun steps m).2.1 = true →
      (bootRun steps (afterAttempts attempts m)).2.2 = (bootRun steps m).2.2) := by
  obtain ⟨f1, f2⟩ := afterAttempts_frame attempts had' m hw
  have hsucc : (bootRun steps (afterAttempts attempts m)).2.1 = (bootRun steps m).2.1 :=
    ((C66_sequence steps m _ f1).2.1).symm
  refine ⟨hsucc, fun hok => ?_⟩
  obtain ⟨-, a1, a2⟩ := C55_sequence steps had m _ hw (Prod.ext hok rfl)
  obtain ⟨-, b1, b2⟩ := C55_sequence steps had _ _ (WF_layout f1 hw) (Prod.ext (hsucc.trans hok) rfl)
  refine mem_eq ⟨(b1.1.trans f1.1).trans a1.1.symm, (b1.2.trans f1.2).trans a1.2.symm⟩ fun x => ?_
  rw [a2, b2]
  cases hl : lastPiece (steps.flatMap BootStep.pieces) x with
  | some b => rfl
  | none =>
    refine f2 x fun a ha st hst hx => ?_
    obtain ⟨t, ht, hst'⟩ := hsame a ha st hst
    obtain ⟨b, hb⟩ := pieces_of_targets (had t ht) ((bootRun_ok steps had m hw).1 hok t ht)
      (sameCall_targets hst' hx)
    obtain ⟨c, hc⟩ := lastPiece_flatMap_some ht hb
    rw [hl] at hc
    cases hc

theorem tries_frame (tries : List BootStep) (had : ∀ st ∈ tries, st.Admissible) (m : Mem) (hw : m.WF) :
    SameLayout m (tries.foldl (fun m t => (t.exec m).2) m) ∧
    ∀ x, (∀ st ∈ tries, ¬ st.Targets x) → (tries.foldl (fun m t => (t.exec m).2) m).data x = m.data x := by
  induction tries generalizing m with
  | nil => exact ⟨⟨rfl, rfl⟩, fun _ _ => rfl⟩
  | cons t rest ih =>
    obtain ⟨h1, h2, -⟩ := exec_spec t (had t (by simp)) m hw
    obtain ⟨i1, i2⟩ := ih (fun t ht => had t (by simp [ht])) (t.exec m).2 (WF_layout h1 hw)
    refine ⟨sameLayout_trans h1 i1, fun x hx => ?_⟩
    exact (i2 x fun t ht => hx t (by simp [ht])).trans (h2 x (hx t (by simp)))

theorem tries_gone {tries : List BootStep} {st : BootStep} (had : st.Admissible)
    (had' : ∀ t ∈ tries, t.Admissible) (hsame : ∀ t ∈ tries, SameCall t st) {m : Mem} (hw : m.WF) :
    (st.exec (tries.foldl (fun m t => (t.exec m).2) m)).1 = (st.exec m).1 ∧
    ((st.exec m).1 = true → (st.exec (tries.foldl (fun m t => (t.exec m).2) m)).2 = (st.exec m).2) := by
  obtain ⟨f1, f2⟩ := tries_frame tries had' m hw
  have hs := exec_layout st f1
  refine ⟨hs.symm, fun hok => ?_⟩
  obtain ⟨a1, -, a2⟩ := exec_spec st had m hw
  obtain ⟨b1, -, b2⟩ := exec_spec st had _ (WF_layout f1 hw)
  refine mem_eq ⟨(b1.1.trans f1.1).trans a1.1.symm, (b1.2.trans f1.2).trans a1.2.symm⟩ fun x => ?_
  rw [a2 hok, b2 (hs.symm.trans hok)]
  cases hl : lastPiece st.pieces x with
  | some b => rfl
  | none =>
    refine f2 x fun t ht hx => ?_
    obtain ⟨b, hb⟩ := pieces_of_targets had hok (sameCall_targets (hsame t ht) hx)
    rw [hl] at hb
    cases hb

/-- **C108.** The same when the VMM does not start from the beginning but tries each call until it
succeeds: the calls succeed if and only if they do without the failed tries, and then guest memory is the
same at the end. -/
theorem C108_resume (plan : List (List BootStep × BootStep))
    (had : ∀ q ∈ plan, q.2.Admissible ∧ ∀ t ∈ q.1, t.Admissible ∧ SameCall t q.2) (m : Mem) (hw : m.WF) :
    (persist plan m).1 = (bootRun (plan.map Prod.snd) m).2.1 ∧
    ((bootRun (plan.map Prod.snd) m).2.1 = true →
      (persist plan m).2 = (bootRun (plan.map Prod.snd) m).2.2) := by
  induction plan generalizing m with
  | nil => exact ⟨rfl, fun _ => rfl⟩
  | cons q rest ih =>
    obtain ⟨tries, st⟩ := q
    obtain ⟨h1, h2⟩ := had (tries, st) (by simp)
    obtain ⟨g1, g2⟩ := tries_gone h1 (fun t ht => (h2 t ht).1) (fun t ht => (h2 t ht).2) hw
    obtain ⟨l1, -, -⟩ := exec_spec st h1 m hw
    have ih := ih (fun q hq => had q (by simp [hq]))
    rw [List.map_cons]
    simp only [persist, bootRun]
    rcases hx : st.exec m with ⟨b, m₁⟩
    rcases hy : st.exec (tries.foldl (fun m t => (t.exec m).2) m) with ⟨b', m₂⟩
    rw [hx, hy] at g1 g2
    rw [hx] at l1
    simp only [hy]
    dsimp only at g1 g2 l1
    subst g1
    cases b' with
    | false => exact ⟨rfl, fun h => nomatch h⟩
    | true =>
      simp only [g2 rfl, Bool.true_and]
      exact ih m₁ (WF_layout l1 hw)

/-- **C108 (limit).** The condition on bzImage readers is needed: an attempt whose reader delivers the
setup header short and then fails leaves bytes where the kernel does not belong, and they stay there. -/
theorem C108_short_header : ∃ (first again : BootStep) (m : Mem), m.WF ∧ SameCall first again ∧
    again.Admissible ∧ (first.exec m).1 = false ∧ (again.exec m).1 = true ∧
    (again.exec (first.exec m).2).1 = true ∧ (again.exec (first.exec m).2).2 ≠ (again.exec m).2 := by
  refine ⟨.bz ⟨demoBz, 0, fun i => if i = 2 then .short 0x21 else if i = 4 then .fail 3 else .ok, 0⟩ none none,
    .bz (.cursor demoBz) none none, elfMem, ⟨?_, List.pairwise_singleton _ _⟩, ⟨rfl, rfl, rfl⟩,
    .inl (fun _ _ h => nomatch h), by decide +kernel, by decide +kernel, by decide +kernel, fun h => ?_⟩
  · intro r hr
    simp only [elfMem, List.mem_singleton] at hr
    subst hr
    decide
  · have := congrFun (congrArg Mem.data h) 0
    revert this
    decide +kernel

/-! ## Examples -/

/-- A reader of the demo image whose 18th operation fails after two bytes. -/
def flakyReader : Reader := ⟨demoElf, 7, fun i => if i = 17 then .fail 2 else .ok, 0⟩

/-- Two attempts at the first three calls: the first one stops in the ELF image, the second one makes the
calls in another order and stops there as well, in another place. -/
def flakyAttempts : List (List BootStep) :=
  [[.elf flakyReader none none],
    [.cmdline 0x1100 demo,
      .elf ⟨demoElf, 0, fun i => if i = 15 then .scatter fun i => if i = 0x21 then some 0x77 else none else .ok, 0⟩
        none none]]

theorem flaky_ok : (∀ a ∈ flakyAttempts, ∀ st ∈ a, st.Admissible) ∧
    ∀ a ∈ flakyAttempts, ∀ st ∈ a, ∃ t ∈ bootSteps.take 3, SameCall st t := by
  have hlen : demoElf.length < ISZ := by decide +kernel
  constructor
  · intro a ha st hst
    simp only [flakyAttempts, List.mem_cons, List.not_mem_nil, or_false] at ha
    rcases ha with rfl | rfl <;> simp only [List.mem_cons, List.not_mem_nil, or_false] at hst
    · subst hst; exact hlen
    · rcases hst with rfl | rfl
      · trivial
      · exact hlen
  · intro a ha st hst
    simp only [flakyAttempts, List.mem_cons, List.not_mem_nil, or_false] at ha
    rcases ha with rfl | rfl <;> simp only [List.mem_cons, List.not_mem_nil, or_false] at hst
    · subst hst; exact ⟨_, .head _, rfl, rfl, rfl⟩
    · rcases hst with rfl | rfl
      · exact ⟨_, .tail _ (.head _), rfl⟩
      · exact ⟨_, .head _, rfl, rfl, rfl⟩

example := C108_retry flakyAttempts (bootSteps.take 3)
  (fun st h => bootSteps_ok.1 st (List.mem_of_mem_take h)) flaky_ok.1 flaky_ok.2 bootMem bootMem_wf

/-- Both attempts fail, after changing memory; the third one succeeds. -/
example : (bootRun (flakyAttempts[0]!) bootMem).2.1 = false ∧
    (bootRun (flakyAttempts[1]!) bootMem).2.1 = false ∧
    (afterAttempts flakyAttempts bootMem).data 0x20 = 0xa1 ∧
    (bootRun (bootSteps.take 3) (afterAttempts flakyAttempts bootMem)).2.1 = true := by decide +kernel

example := C108_resume
  [([.elf flakyReader none none], .elf (.cursor demoElf) none none), ([], .cmdline 0x1100 demo)] (by
    have hlen : demoElf.length < ISZ := by decide +kernel
    intro q hq
    simp only [List.mem_cons, List.not_mem_nil, or_false] at hq
    rcases hq with rfl | rfl
    · refine ⟨hlen, fun t ht => ?_⟩
      simp only [List.mem_cons, List.not_mem_nil, or_false] at ht
      subst ht
      exact ⟨hlen, rfl, rfl, rfl⟩
    · exact ⟨trivial, fun t ht => nomatch ht⟩) bootMem bootMem_wf

end LinuxLoader
