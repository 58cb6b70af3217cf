import Verif.Spec.Boot
import Verif.Props.LoadCmdline
import Verif.Props.Config
import Verif.Props.Pe
import Verif.Props.BzImage

/-!
# Sequences of loader and configurator calls (C55)

Vocabulary: `Spec/Boot.lean`.
-/

namespace LinuxLoader
open Spec

theorem lastPiece_append' (k l : List (Nat × List UInt8)) (x : Nat) :
    lastPiece (k ++ l) x = match lastPiece l x with
      | some b => some b
      | none => lastPiece k x := by
  induction k with
  | nil => simp only [List.nil_append, lastPiece]; cases lastPiece l x <;> rfl
  | cons q k ih =>
    obtain ⟨a, bs⟩ := q
    simp only [List.cons_append, lastPiece, ih]
    cases lastPiece l x <;> rfl

theorem lastPiece_some_in {ps : List (Nat × List UInt8)} {x : Nat} {b : UInt8}
    (h : lastPiece ps x = some b) : InPieces ps x := by
  apply Classical.byContradiction
  intro hn
  rw [lastPiece_outside fun q hq hr => hn ⟨q, hq, hr⟩] at h
  cases h

theorem stored_lastPiece {m m' : Mem} {a : Nat} {bs : List UInt8} (h : Stored m m' a bs) (x : Nat) :
    m'.data x = (lastPiece [(a, bs)] x).getD (m.data x) := by
  simp only [lastPiece]
  by_cases hx : InRange a bs.length x
  · unfold InRange at hx
    rw [if_pos hx.1]
    obtain ⟨b, hb⟩ : ∃ b, bs[x - a]? = some b := ⟨bs[x - a]'(by omega), List.getElem?_eq_getElem _⟩
    rw [hb]
    have := h.2.1 (x - a) b hb
    rw [show a + (x - a) = x by omega] at this
    exact this
  · rw [h.2.2 x hx]
    unfold InRange at hx
    by_cases hax : a ≤ x
    · rw [if_pos hax, List.getElem?_eq_none (by omega)]; rfl
    · rw [if_neg hax]; rfl

theorem isOk_iff {ε α : Type} {r : Res ε α} : r.isOk = true ↔ ∃ a, r = .ok a := by
  cases r <;> simp [Res.isOk]

theorem WF_layout {m m' : Mem} (h : SameLayout m m') (hw : m.WF) : m'.WF := by
  unfold Mem.WF at *; rw [h.1]; exact hw

/-- Pieces are inside the target. -/
theorem targets_of_pieces {st : BootStep} {x : Nat} (h : InPieces st.pieces x) : st.Targets x := by
  cases st
  case elf rd k hm =>
    refine Classical.byContradiction fun hx => ?_
    obtain ⟨q, hq, hr⟩ := h
    exact elfPieces_range hx q hq hr
  all_goals exact h

/-- The effect of one call. -/
theorem exec_spec (st : BootStep) (had : st.Admissible) (m : Mem) (hw : m.WF) :
    SameLayout m (st.exec m).2 ∧
    (∀ x, ¬ st.Targets x → (st.exec m).2.data x = m.data x) ∧
    ((st.exec m).1 = true →
      ∀ x, (st.exec m).2.data x = (lastPiece st.pieces x).getD (m.data x)) := by
  have single : ∀ {a : Nat} {bs : List UInt8} {x : Nat}, ¬ InPieces [(a, bs)] x →
      ¬ InRange a bs.length x := fun h hr => h ⟨_, .head _, hr⟩
  cases st with
  | elf rd k h =>
    refine ⟨(good_elfLoad k h).layout ⟨rd, m⟩, fun x hx => ?_, fun hok x => ?_⟩
    · exact C44_elf_frame k h ⟨rd, m⟩ x hx
    · obtain ⟨r, hr⟩ := isOk_iff.1 hok
      exact (C35_elf_segments_in_place (s := ⟨rd, m⟩) had (Prod.ext hr rfl)).2 x
  | bz rd k h =>
    have had' : NoShortReads ⟨rd, m⟩ ∨ k ≠ none := had
    refine ⟨(bzLoad_from k h ⟨rd, m⟩ had').1,
      fun x hx => C44_bz_frame k h ⟨rd, m⟩ had' x (single hx), fun hok x => ?_⟩
    obtain ⟨r, hr⟩ := isOk_iff.1 hok
    have hr' : bzLoad k h ⟨rd, m⟩ = (.ok r, (bzLoad k h ⟨rd, m⟩).2) := Prod.ext hr rfl
    obtain ⟨hs, -, -, -, -, hk⟩ := C47_bz_kernel_in_place hr'
    have haddr : r.kernelLoad = bzAddress rd.data k := by
      cases k with
      | some q => exact hk q rfl
      | none =>
        rcases had' with hns | h
        · exact C47_bz_default_address hns hr'
        · exact absurd rfl h
    rw [haddr] at hs
    exact stored_lastPiece hs x
  | pe arch rd k h =>
    refine ⟨(good_peLoad arch k h).layout ⟨rd, m⟩,
      fun x hx => C44_pe_frame arch k h ⟨rd, m⟩ x (single hx), fun hok x => ?_⟩
    obtain ⟨r, hr⟩ := isOk_iff.1 hok
    have hr' : peLoad arch k h ⟨rd, m⟩ = (.ok r, (peLoad arch k h ⟨rd, m⟩).2) := Prod.ext hr rfl
    obtain ⟨hs, -, hk, -⟩ := C51_pe_image_in_place hr'
    rw [hk] at hs
    exact stored_lastPiece hs x
  | dtb rd a =>
    obtain ⟨h1, h2⟩ := C44_dtb_frame a ⟨rd, m⟩
    refine ⟨h1, fun x hx => h2 x (single hx), fun hok x => ?_⟩
    obtain ⟨r, hr⟩ := isOk_iff.1 hok
    exact stored_lastPiece (C53_dtb_in_place (Prod.ext hr rfl)).2.2 x
  | cmdline a c =>
    obtain ⟨h1, h2⟩ := C21_frame a c m
    refine ⟨h1, fun x hx => h2 x fun bs hbs => .inl ?_, fun hok x => ?_⟩
    · have := single hx
      rw [← Cmdline.asCString_ok hbs] at this
      simpa using this
    · obtain ⟨r, hr⟩ := isOk_iff.1 hok
      exact stored_lastPiece (C19_text a c m _ (Prod.ext hr rfl)) x
  | linux p =>
    simp only [BootStep.exec, BootStep.pieces]
    rw [linuxWrite_eq]
    rcases guardedWrite_cases p.header p.headerStart LinuxError.zeroPagePastRamEnd .zeroPageSetup m hw
      with ⟨-, he⟩ | ⟨-, -, m1, h1, he⟩ | ⟨-, -, he⟩ <;> rw [he]
    · exact ⟨⟨rfl, rfl⟩, fun _ _ => rfl, fun h => by cases h⟩
    · exact ⟨(prefixStored_frame h1).1, fun x hx => (prefixStored_frame h1).2 x (single hx),
        fun h => by cases h⟩
    · exact ⟨⟨rfl, rfl⟩, fun x hx => store_frame (single hx),
        fun _ => stored_lastPiece (Mem.stored_store _ _ _)⟩
  | fdt p =>
    simp only [BootStep.exec, BootStep.pieces]
    rw [fdtWrite_eq]
    rcases guardedWrite_cases p.header p.headerStart FdtError.fdtPastRamEnd .writeFdtToMemory m hw
      with ⟨-, he⟩ | ⟨-, -, m1, h1, he⟩ | ⟨-, -, he⟩ <;> rw [he]
    · exact ⟨⟨rfl, rfl⟩, fun _ _ => rfl, fun h => by cases h⟩
    · exact ⟨(prefixStored_frame h1).1, fun x hx => (prefixStored_frame h1).2 x (single hx),
        fun h => by cases h⟩
    · exact ⟨⟨rfl, rfl⟩, fun x hx => store_frame (single hx),
        fun _ => stored_lastPiece (Mem.stored_store _ _ _)⟩
  | pvh p =>
    obtain ⟨h1, h2⟩ := C32_frame p m hw
    refine ⟨h1, h2, fun hok x => ?_⟩
    obtain ⟨r, hr⟩ := isOk_iff.1 hok
    exact (C31_success p m _ hw (Prod.ext hr rfl)).2 x
  | own a bytes =>
    simp only [BootStep.exec, BootStep.pieces]
    rcases writeSliceOr_cases bytes a () m with ⟨-, he⟩ | ⟨-, m1, h1, he⟩ <;> rw [he]
    · exact ⟨⟨rfl, rfl⟩, fun x hx => store_frame (single hx),
        fun _ => stored_lastPiece (Mem.stored_store _ _ _)⟩
    · exact ⟨(prefixStored_frame h1).1, fun x hx => (prefixStored_frame h1).2 x (single hx),
        fun h => by cases h⟩

/-- **C55.** After any calls in any order that all succeed, guest memory is the old memory overwritten,
in the order of the calls, by what each of them is meant to put there. -/
theorem C55_sequence (steps : List BootStep) (had : ∀ st ∈ steps, st.Admissible) (m m' : Mem)
    (hw : m.WF) (h : (bootRun steps m).2 = (true, m')) :
    (bootRun steps m).1 = steps ∧ SameLayout m m' ∧
    ∀ x, m'.data x = (lastPiece (steps.flatMap BootStep.pieces) x).getD (m.data x) := by
  induction steps generalizing m with
  | nil => cases h; exact ⟨rfl, ⟨rfl, rfl⟩, fun _ => rfl⟩
  | cons st rest ih =>
    have hs := exec_spec st (had st (by simp)) m hw
    unfold bootRun at h ⊢
    rcases he : st.exec m with ⟨b, m₁⟩
    rw [he] at hs h
    cases b with
    | false => cases h
    | true =>
      simp only at hs h ⊢
      obtain ⟨h1, h2, h3⟩ := ih (fun t ht => had t (by simp [ht])) m₁ (WF_layout hs.1 hw)
        (Prod.ext (congrArg Prod.fst h) (congrArg Prod.snd h))
      refine ⟨by rw [h1], ⟨h2.1.trans hs.1.1, h2.2.trans hs.1.2⟩, fun x => ?_⟩
      rw [h3, hs.2.2 trivial, List.flatMap_cons, lastPiece_append']
      cases lastPiece (rest.flatMap BootStep.pieces) x <;> rfl

theorem inPieces_flatMap {steps : List BootStep} {x : Nat}
    (h : InPieces (steps.flatMap BootStep.pieces) x) : ∃ st ∈ steps, InPieces st.pieces x := by
  obtain ⟨q, hq, hr⟩ := h
  obtain ⟨st, hst, hq⟩ := List.mem_flatMap.1 hq
  exact ⟨st, hst, q, hq, hr⟩

/-- Nothing outside the pieces of all the calls changes, and the successful calls among them are a
prefix. -/
theorem bootRun_frame (steps : List BootStep) (had : ∀ st ∈ steps, st.Admissible) (m : Mem)
    (hw : m.WF) :
    SameLayout m (bootRun steps m).2.2 ∧ (bootRun steps m).1 <+: steps ∧
    ∀ x, (∀ st ∈ steps, ¬ st.Targets x) → (bootRun steps m).2.2.data x = m.data x := by
  induction steps generalizing m with
  | nil => exact ⟨⟨rfl, rfl⟩, List.prefix_refl _, fun _ _ => rfl⟩
  | cons st rest ih =>
    have hs := exec_spec st (had st (by simp)) m hw
    unfold bootRun
    rcases he : st.exec m with ⟨b, m₁⟩
    rw [he] at hs
    cases b with
    | false =>
      exact ⟨hs.1, List.nil_prefix, fun x hx => hs.2.1 x (hx st (by simp))⟩
    | true =>
      obtain ⟨h2, h1, h3⟩ := ih (fun t ht => had t (by simp [ht])) m₁ (WF_layout hs.1 hw)
      refine ⟨⟨h2.1.trans hs.1.1, h2.2.trans hs.1.2⟩, List.cons_prefix_cons.2 ⟨rfl, h1⟩,
        fun x hx => ?_⟩
      exact (h3 x fun t ht => hx t (by simp [ht])).trans (hs.2.1 x (hx st (by simp)))

/-- **C55**, at every crash point. Calls on pairwise disjoint targets: whether or not all of them
succeed, what every successful call is meant to put into memory is there at the end — the calls after
it, including the failing one, leave it alone — and nothing outside the targets has changed. -/
theorem C55_disjoint (steps : List BootStep) (had : ∀ st ∈ steps, st.Admissible) (m : Mem)
    (hw : m.WF) (hdis : steps.Pairwise BootStep.Disjoint) :
    (∀ st ∈ (bootRun steps m).1, st.InPlace (bootRun steps m).2.2) ∧
    (bootRun steps m).1 <+: steps ∧
    ((bootRun steps m).2.1 = true → (bootRun steps m).1 = steps) ∧
    SameLayout m (bootRun steps m).2.2 ∧
    ∀ x, (∀ st ∈ steps, ¬ st.Targets x) → (bootRun steps m).2.2.data x = m.data x := by
  obtain ⟨f1, f2, f3⟩ := bootRun_frame steps had m hw
  refine ⟨?_, f2, fun h => (C55_sequence steps had m _ hw (Prod.ext h rfl)).1, f1, f3⟩
  clear f1 f2 f3
  induction steps generalizing m with
  | nil => intro st hst; cases hst
  | cons st rest ih =>
    have hs := exec_spec st (had st (by simp)) m hw
    obtain ⟨hd1, hd2⟩ := List.pairwise_cons.1 hdis
    unfold bootRun
    rcases he : st.exec m with ⟨b, m₁⟩
    rw [he] at hs
    cases b with
    | false => intro st hst; cases hst
    | true =>
      have had' : ∀ t ∈ rest, t.Admissible := fun t ht => had t (by simp [ht])
      have hw' := WF_layout hs.1 hw
      have ih := ih had' m₁ hw' hd2
      obtain ⟨-, -, h3⟩ := bootRun_frame rest had' m₁ hw'
      intro t ht
      simp only at ht ⊢
      rcases List.mem_cons.1 ht with rfl | ht
      · intro x b hb
        rw [h3 x fun t' ht' hin => hd1 t' ht' x ⟨targets_of_pieces (lastPiece_some_in hb), hin⟩, hs.2.2 rfl, hb]
        rfl
      · exact ih t ht

/-- **C55**, piece by piece: if also the pieces of each call are disjoint from each other, each of them
can be read back at the end. -/
theorem C55_pieces (steps : List BootStep) (had : ∀ st ∈ steps, st.Admissible) (m : Mem)
    (hw : m.WF) (hdis : steps.Pairwise BootStep.Disjoint) (st : BootStep)
    (hst : st ∈ (bootRun steps m).1)
    (hown : st.pieces.Pairwise fun p q => ∀ x, ¬ (InRange p.1 p.2.length x ∧ InRange q.1 q.2.length x)) :
    ∀ q ∈ st.pieces, Holds (bootRun steps m).2.2.data q.1 q.2 := by
  have hin := (C55_disjoint steps had m hw hdis).1 st hst
  intro q hq i b hb
  have h1 := lastPiece_holds hown (fun _ => 0) q hq i b hb
  have h2 := lastPiece_holds hown (fun _ => 1) q hq i b hb
  simp only at h1 h2
  apply hin
  cases h : lastPiece st.pieces (q.1 + i) with
  | none =>
    rw [h] at h1 h2
    have h1' : (0 : UInt8) = b := h1
    have h2' : (1 : UInt8) = b := h2
    rw [← h1'] at h2'
    cases h2'
  | some c => rw [h] at h1; exact congrArg some h1

/-! ## A concrete boot -/

/-- Two regions. -/
def bootMem : Mem := ⟨[⟨0, 0x200⟩, ⟨0x1000, 0x400⟩], fun _ => 0xee, false⟩

theorem bootMem_wf : bootMem.WF := by
  constructor
  · intro r hr
    simp only [bootMem, List.mem_cons, List.not_mem_nil, or_false] at hr
    rcases hr with rfl | rfl <;> decide
  · simp [bootMem]

/-- Kernel, command line, PVH boot parameters, and a device tree blob that does not fit. -/
def bootSteps : List BootStep :=
  [.elf (.cursor demoElf) none none, .cmdline 0x1100 demo,
    .pvh ((BootParams.new [1, 2, 3] 0x1000).setSections [[4, 5]] 0x1010), .dtb (.cursor [7, 8]) 0x13ff]

/-- The first three calls succeed, the last one fails after writing a byte. -/
example : (bootRun bootSteps bootMem).1.length = 3 ∧ (bootRun bootSteps bootMem).2.1 = false ∧
    (bootRun bootSteps bootMem).2.2.data 0x13ff = 7 ∧
    (bootRun (bootSteps.take 3) bootMem).2.1 = true := by decide +kernel

theorem bootSteps_pieces : bootSteps.map BootStep.pieces =
    [[(0x20, [0xa1, 0xa2, 0xa3, 0xa4]), (0x40, [0xa2, 0xa3, 0xa4])],
      [(0x1100, [97, 61, 98, 32, 45, 45, 32, 120, 0])], [(0x1010, [4, 5]), (0x1000, [1, 2, 3])],
      [(0x13ff, [7, 8])]] := by decide +kernel

/-- The hypotheses of `C55_disjoint` and `C55_pieces` hold for it. -/
theorem bootSteps_ok :
    (∀ st ∈ bootSteps, st.Admissible) ∧ bootMem.WF ∧ bootSteps.Pairwise BootStep.Disjoint := by
  refine ⟨?_, bootMem_wf, ?_⟩
  · intro st hst
    simp only [bootSteps, List.mem_cons, List.not_mem_nil, or_false] at hst
    rcases hst with rfl | rfl | rfl | rfl
    · show demoElf.length < ISZ
      decide +kernel
    all_goals trivial
  · have h : (bootSteps.map BootStep.pieces).Pairwise fun p q =>
        ∀ x, ¬ (InPieces p x ∧ InPieces q x) := by
      rw [bootSteps_pieces]
      simp only [List.pairwise_cons, List.mem_cons, List.not_mem_nil, or_false, forall_eq_or_imp,
        forall_eq, InPieces, exists_eq_or_imp, exists_eq_left, List.length_cons, List.length_nil,
        InRange, false_implies, implies_true, List.Pairwise.nil, and_true]
      refine ⟨⟨?_, ?_, ?_⟩, ⟨?_, ?_⟩, ?_⟩ <;> intro x <;> omega
    have hin : ∀ st ∈ bootSteps, ∀ x, st.Targets x → InPieces st.pieces x := by
      intro st hst x hx
      simp only [bootSteps, List.mem_cons, List.not_mem_nil, or_false] at hst
      rcases hst with rfl | rfl | rfl | rfl
      · obtain ⟨q, hq, hr⟩ := hx
        have hlen : ∀ h ∈ elfLoadable demoElf, (h.contents demoElf).length = h.filesz := by
          decide +kernel
        refine ⟨_, List.mem_map.2 ⟨q, hq, rfl⟩, ?_⟩
        show InRange _ (q.contents demoElf).length x
        rw [hlen q hq]
        exact hr
      all_goals exact hx
    exact (List.pairwise_map.1 h).imp_of_mem fun ha hb h' x hx =>
      h' x ⟨hin _ ha x hx.1, hin _ hb x hx.2⟩

/-- All three theorems apply to it. -/
example := C55_sequence (bootSteps.take 3) (fun st h => bootSteps_ok.1 st (List.mem_of_mem_take h)) bootMem
  (bootRun (bootSteps.take 3) bootMem).2.2 bootSteps_ok.2.1 (ran (by decide +kernel))

example := C55_disjoint bootSteps bootSteps_ok.1 bootMem bootSteps_ok.2.1 bootSteps_ok.2.2

example := C55_pieces bootSteps bootSteps_ok.1 bootMem bootSteps_ok.2.1 bootSteps_ok.2.2
  (.cmdline 0x1100 demo)

end LinuxLoader
