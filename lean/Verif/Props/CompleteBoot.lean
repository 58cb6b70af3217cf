import Verif.Spec.CompleteBoot
import Verif.Props.Complete
import Verif.Props.Boot

/-! # C116: the specification of boot sequences is complete -/

namespace LinuxLoader
open Spec

/-- Success, or failure with the bytes up to the first unmapped address. -/
theorem ownDone_iff (a : GuestAddr) (bytes : List UInt8) (m : Mem) (res : Res Unit Unit) (m' : Mem) :
    OwnDone a bytes m res m' ↔ res = (writeSliceOr bytes a () m).1 ∧ m' = (writeSliceOr bytes a () m).2 := by
  refine doneRight_exactly (cut := fun _ => True) (k := fun _ => 0) (fun _ _ _ _ => rfl)
    ⟨fun ho => ?_, fun e he => ?_⟩ res m'
  · have ho' := firstObstacle_none_iff.1 ho _ (List.mem_cons_self ..)
    rcases writeSliceOr_cases bytes a () m with ⟨-, he⟩ | ⟨hn, -⟩
    · rw [he]
      exact ⟨(), rfl, trivial, ⟨rfl, rfl⟩, stored_lastPiece (Mem.stored_store _ _ _)⟩
    · exact absurd hn ho'
  · have hr : (writeSliceOr bytes a () m).1 = .err e := by
      cases he with
      | here hp =>
        rcases writeSliceOr_cases bytes a () m with ⟨hA, -⟩ | ⟨-, m1, -, he⟩
        · exact absurd hA hp
        · rw [he]
      | later _ he => cases he
    exact ⟨hr, (left_writeSliceOr [] trivial hr).2⟩

theorem isLast_layout {m m' : Mem} {last : Nat} (h : SameLayout m m') (hl : IsLast m last) : IsLast m' last := by
  have hm : ∀ x, m'.mapped x = m.mapped x := fun x => by unfold Mem.mapped; rw [h.1]
  exact ⟨by rw [hm]; exact hl.1, fun x hx => hl.2 x (by rw [← hm]; exact hx)⟩

/-- **C116 (one call).** Of all results and memories exactly those of the call are right. -/
theorem C116_step (st : BootStep) (m : Mem) (hw : m.WF) (last : Nat) (hl : IsLast m last) (hf : st.Faultless)
    (had : st.Admissible) (r : StepResult) (m' : Mem) :
    StepDone last m st r m' ↔ (r, m') = st.outcome m := by
  rw [Prod.ext_iff]
  constructor
  · rintro (h | h | h | h | h | h | h | h | h)
    · exact ⟨congrArg StepResult.image ((C114_elf _ _ ⟨_, m⟩ hf had _ _).1 h).1, ((C114_elf _ _ ⟨_, m⟩ hf had _ _).1 h).2⟩
    · exact ⟨congrArg StepResult.image ((C114_bz _ _ ⟨_, m⟩ hf _ _).1 h).1, ((C114_bz _ _ ⟨_, m⟩ hf _ _).1 h).2⟩
    · exact ⟨congrArg StepResult.image ((C114_pe _ _ _ ⟨_, m⟩ hf _ _).1 h).1, ((C114_pe _ _ _ ⟨_, m⟩ hf _ _).1 h).2⟩
    · exact ⟨congrArg StepResult.dtb ((C114_dtb _ ⟨_, m⟩ hf _ _).1 h).1, ((C114_dtb _ ⟨_, m⟩ hf _ _).1 h).2⟩
    · exact ⟨congrArg StepResult.cmdline ((C114_cmdline _ _ m hw last hl _ _).1 h).1, ((C114_cmdline _ _ m hw last hl _ _).1 h).2⟩
    · exact ⟨congrArg StepResult.linux ((C114_linux _ m hw _ _).1 h).1, ((C114_linux _ m hw _ _).1 h).2⟩
    · exact ⟨congrArg StepResult.fdt ((C114_fdt _ m hw _ _).1 h).1, ((C114_fdt _ m hw _ _).1 h).2⟩
    · exact ⟨congrArg StepResult.pvh ((C114_pvh _ m hw _ _).1 h).1, ((C114_pvh _ m hw _ _).1 h).2⟩
    · exact ⟨congrArg StepResult.own ((ownDone_iff _ _ m _ _).1 h).1, ((ownDone_iff _ _ m _ _).1 h).2⟩
  · rintro ⟨h1, h2⟩
    dsimp only at h1 h2
    subst h1 h2
    cases st with
    | elf rd k h => exact .elf ((C114_elf k h ⟨rd, m⟩ hf had _ _).2 ⟨rfl, rfl⟩)
    | bz rd k h => exact .bz ((C114_bz k h ⟨rd, m⟩ hf _ _).2 ⟨rfl, rfl⟩)
    | pe arch rd k h => exact .pe ((C114_pe arch k h ⟨rd, m⟩ hf _ _).2 ⟨rfl, rfl⟩)
    | dtb rd a => exact .dtb ((C114_dtb a ⟨rd, m⟩ hf _ _).2 ⟨rfl, rfl⟩)
    | cmdline a c => exact .cmdline ((C114_cmdline a c m hw last hl _ _).2 ⟨rfl, rfl⟩)
    | linux p => exact .linux ((C114_linux p m hw _ _).2 ⟨rfl, rfl⟩)
    | fdt p => exact .fdt ((C114_fdt p m hw _ _).2 ⟨rfl, rfl⟩)
    | pvh p => exact .pvh ((C114_pvh p m hw _ _).2 ⟨rfl, rfl⟩)
    | own a bytes => exact .own ((ownDone_iff a bytes m _ _).2 ⟨rfl, rfl⟩)

theorem outcome_exec (st : BootStep) (m : Mem) : st.exec m = ((st.outcome m).1.good, (st.outcome m).2) := by
  cases st <;> rfl

/-- **C116 (sequences).** Of all lists of results and final memories exactly those of the sequence of calls are
right. -/
theorem C116_sequence (steps : List BootStep) : ∀ (m : Mem), m.WF → ∀ last, IsLast m last →
    (∀ st ∈ steps, st.Faultless ∧ st.Admissible) → ∀ (rs : List StepResult) (m' : Mem),
    SequenceDone last m steps rs m' ↔ (rs, m') = bootResults steps m := by
  induction steps with
  | nil =>
    intro m _ last _ _ rs m'
    constructor
    · intro h
      cases h
      rfl
    · intro h
      cases h
      exact .nil
  | cons st rest ih =>
    intro m hw last hl hok rs m'
    have hst := hok st (List.mem_cons_self ..)
    have hlay := (exec_spec st hst.2 m hw).1
    rw [outcome_exec] at hlay
    have key := C116_step st m hw last hl hst.1 hst.2
    have ih' := ih (st.outcome m).2 (WF_layout hlay hw) last (isLast_layout hlay hl)
      fun s hs => hok s (List.mem_cons_of_mem _ hs)
    unfold bootResults
    dsimp only
    constructor
    · intro h
      cases h with
      | stop h hg =>
        have h := (key _ _).1 h
        rw [← h, if_neg (by rw [hg]; decide)]
      | go h hg h' =>
        have h := (key _ _).1 h
        rw [← h] at ih' ⊢
        rw [if_pos hg, ← (ih' _ _).1 h']
    · intro h
      by_cases hg : (st.outcome m).1.good = true
      · rw [if_pos hg] at h
        cases h
        exact .go ((key _ _).2 rfl) hg ((ih' _ _).2 rfl)
      · rw [if_neg hg] at h
        cases h
        exact .stop ((key _ _).2 rfl) (by simpa using hg)

/-- **C116 (successful sequences).** The sequence as `bootRun` reports it: the calls that succeeded are as many as the
good results, all have succeeded if all results are good, and memory is the same. -/
theorem C116_run (steps : List BootStep) : ∀ (m : Mem),
    bootRun steps m = (steps.take ((bootResults steps m).1.countP StepResult.good),
      (bootResults steps m).1.all StepResult.good, (bootResults steps m).2) := by
  induction steps with
  | nil => intro m; rfl
  | cons st rest ih =>
    intro m
    unfold bootRun bootResults
    rw [outcome_exec]
    dsimp only
    cases hg : (st.outcome m).1.good with
    | true =>
      dsimp only
      rw [ih, if_pos rfl]
      simp only [List.countP_cons_of_pos hg, List.take_succ_cons, List.all_cons, hg, Bool.true_and]
    | false =>
      dsimp only
      rw [if_neg (by decide)]
      simp [hg]

/-! ## Non-vacuity -/

theorem bootMem_last : IsLast bootMem 0x13ff := by
  constructor
  · decide
  · intro x hx
    simp only [bootMem, Mem.mapped, List.any_cons, List.any_nil, Bool.or_false, Bool.or_eq_true, Bool.and_eq_true,
      decide_eq_true_eq] at hx
    omega

/-- The boot of `Props/Boot.lean`: kernel, command line, PVH parameters, and a device tree that does not fit. -/
theorem bootSteps_done : SequenceDone 0x13ff bootMem bootSteps (bootResults bootSteps bootMem).1
    (bootResults bootSteps bootMem).2 := by
  refine (C116_sequence _ _ bootMem_wf _ bootMem_last (fun st hst => ⟨?_, bootSteps_ok.1 st hst⟩) _ _).2 (Prod.eta _)
  simp only [bootSteps, List.mem_cons, List.not_mem_nil, or_false] at hst
  rcases hst with rfl | rfl | rfl | rfl
  · exact fun _ => rfl
  · trivial
  · trivial
  · exact fun _ => rfl

/-- What the four calls return. -/
example : (bootResults bootSteps bootMem).1.map StepResult.good = [true, true, true, false] ∧
    (bootResults bootSteps bootMem).1[3]? = some (.dtb (.err (.pe .readDtbImage))) ∧
    (bootResults bootSteps bootMem).1[1]? = some (.cmdline (.ok ())) := by decide +kernel

/-- Going on after the failure is wrong, and so is stopping before it. -/
example (m' : Mem) :
    (∀ rs, SequenceDone 0x13ff bootMem (bootSteps ++ [.own 0 [1]]) rs m' → rs.length = 4) ∧
    ¬ SequenceDone 0x13ff bootMem bootSteps ((bootResults bootSteps bootMem).1.take 3) m' := by
  have hok : ∀ st ∈ bootSteps ++ [BootStep.own 0 [1]], st.Faultless ∧ st.Admissible := by
    intro st hst
    rcases List.mem_append.1 hst with hst | hst
    · refine ⟨?_, bootSteps_ok.1 st hst⟩
      simp only [bootSteps, List.mem_cons, List.not_mem_nil, or_false] at hst
      rcases hst with rfl | rfl | rfl | rfl
      · exact fun _ => rfl
      · trivial
      · trivial
      · exact fun _ => rfl
    · rw [List.mem_singleton.1 hst]
      exact ⟨trivial, trivial⟩
  constructor
  · intro rs h
    have h := (C116_sequence _ _ bootMem_wf _ bootMem_last hok _ _).1 h
    rw [show rs = (bootResults (bootSteps ++ [.own 0 [1]]) bootMem).1 from congrArg Prod.fst h]
    decide +kernel
  · intro h
    have h := (C116_sequence _ _ bootMem_wf _ bootMem_last
      (fun st hst => hok st (List.mem_append_left _ hst)) _ _).1 h
    have h1 := congrArg (fun p => p.1.length) h
    dsimp only at h1
    rw [List.length_take] at h1
    have h4 : (bootResults bootSteps bootMem).1.length = 4 := by decide +kernel
    omega

end LinuxLoader
