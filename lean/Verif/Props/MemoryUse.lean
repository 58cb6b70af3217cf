import Verif.Lemmas.Track
import Verif.Props.Boot

/-!
# How calls depend on guest memory (C66, C67, C68)

Vocabulary: `Spec/Memory2.lean`.
-/

namespace LinuxLoader
open Spec

/-- **C66.** Outcome (result, error or panic) and effect of every loader do not depend on what was in
guest memory before. -/
theorem C66_loaders (arch : PeArch) (k h : Option GuestAddr) (a : GuestAddr) :
    ContentsIrrelevant (elfLoad k h) ∧ ContentsIrrelevant (bzLoad k h) ∧
    ContentsIrrelevant (peLoad arch k h) ∧ ContentsIrrelevant (loadDtb a) :=
  ⟨(Track.elfLoad k h).contents, (Track.bzLoad k h).contents, (Track.peLoad arch k h).contents,
   (Track.loadDtb a).contents⟩

/-- **C66.** The same for the command line and the boot configurators. -/
theorem C66_configurators (a : GuestAddr) (c : Cmdline) (p : BootParams) :
    ContentsIrrelevantM (loadCmdline a c) ∧ ContentsIrrelevantM (linuxWrite p) ∧
    ContentsIrrelevantM (fdtWrite p) ∧ ContentsIrrelevantM (pvhWrite p) :=
  ⟨(Track.loadCmdline a c).contentsM, (Track.linuxWrite p).contentsM, (Track.fdtWrite p).contentsM,
   (Track.pvhWrite p).contentsM⟩

/-- **C67.** Every loader can be repeated: same outcome, and guest memory (also after a failure) stays
as the first call left it. -/
theorem C67_loaders (arch : PeArch) (k h : Option GuestAddr) (a : GuestAddr) :
    Repeatable (elfLoad k h) ∧ Repeatable (bzLoad k h) ∧ Repeatable (peLoad arch k h) ∧
    Repeatable (loadDtb a) :=
  ⟨(Track.elfLoad k h).repeatable, (Track.bzLoad k h).repeatable, (Track.peLoad arch k h).repeatable,
   (Track.loadDtb a).repeatable⟩

/-- **C67.** The same for the command line and the boot configurators. -/
theorem C67_configurators (a : GuestAddr) (c : Cmdline) (p : BootParams) :
    RepeatableM (loadCmdline a c) ∧ RepeatableM (linuxWrite p) ∧ RepeatableM (fdtWrite p) ∧
    RepeatableM (pvhWrite p) :=
  ⟨(Track.loadCmdline a c).repeatableM, (Track.linuxWrite p).repeatableM,
   (Track.fdtWrite p).repeatableM, (Track.pvhWrite p).repeatableM⟩

/-- **C68.** A loader that succeeds also succeeds, with the same result and effect, on a guest with more
memory. -/
theorem C68_loaders (arch : PeArch) (k h : Option GuestAddr) (a : GuestAddr) :
    MoreMemoryHarmless (elfLoad k h) ∧ MoreMemoryHarmless (bzLoad k h) ∧
    MoreMemoryHarmless (peLoad arch k h) ∧ MoreMemoryHarmless (loadDtb a) :=
  ⟨(Track.elfLoad k h).more, (Track.bzLoad k h).more, (Track.peLoad arch k h).more,
   (Track.loadDtb a).more⟩

/-- **C68.** The same for the command line and the boot configurators. -/
theorem C68_configurators (a : GuestAddr) (c : Cmdline) (p : BootParams) :
    MoreMemoryHarmlessM (loadCmdline a c) ∧ MoreMemoryHarmlessM (linuxWrite p) ∧
    MoreMemoryHarmlessM (fdtWrite p) ∧ MoreMemoryHarmlessM (pvhWrite p) :=
  ⟨(Track.loadCmdline a c).moreM, (Track.linuxWrite p).moreM, (Track.fdtWrite p).moreM,
   (Track.pvhWrite p).moreM⟩

/-! ## Sequences of calls -/

theorem exec_track (st : BootStep) (b : Bool) (m₁ m₂ : Mem) (hr : Rel b m₁ m₂)
    (hb : b = true ∨ (st.exec m₁).1 = true) :
    ∃ w, (st.exec m₁).1 = (st.exec m₂).1 ∧ (st.exec m₁).2 = overwrite m₁ w ∧
      (st.exec m₂).2 = overwrite m₂ w := by
  have lift : ∀ {ε α : Type} {f : LM LS ε α} (rd : Reader), Track b f →
      (b = true ∨ (f ⟨rd, m₁⟩).1.isOk = true) →
      ∃ w, (f ⟨rd, m₁⟩).1.isOk = (f ⟨rd, m₂⟩).1.isOk ∧ (f ⟨rd, m₁⟩).2.mem = overwrite m₁ w ∧
        (f ⟨rd, m₂⟩).2.mem = overwrite m₂ w := by
    intro ε α f rd hf hb
    obtain ⟨w, h1, -, h3, h4⟩ := hf rd m₁ m₂ hr hb
    exact ⟨w, by rw [h1], h3, h4⟩
  cases st with
  | elf rd k h => exact lift rd (Track.elfLoad k h) hb
  | bz rd k h => exact lift rd (Track.bzLoad k h) hb
  | pe arch rd k h => exact lift rd (Track.peLoad arch k h) hb
  | dtb rd a => exact lift rd (Track.loadDtb a) hb
  | cmdline a c => exact lift (.cursor []) (Track.loadCmdline a c) hb
  | linux p => exact lift (.cursor []) (Track.linuxWrite p) hb
  | fdt p => exact lift (.cursor []) (Track.fdtWrite p) hb
  | pvh p => exact lift (.cursor []) (Track.pvhWrite p) hb
  | own a bytes => exact lift (.cursor []) (Track.writeSliceOr bytes a ()) hb

theorem bootRun_track (steps : List BootStep) (b : Bool) (m₁ m₂ : Mem) (hr : Rel b m₁ m₂)
    (hb : b = true ∨ (bootRun steps m₁).2.1 = true) :
    ∃ w, (bootRun steps m₁).1 = (bootRun steps m₂).1 ∧
      (bootRun steps m₁).2.1 = (bootRun steps m₂).2.1 ∧
      (bootRun steps m₁).2.2 = overwrite m₁ w ∧ (bootRun steps m₂).2.2 = overwrite m₂ w := by
  induction steps generalizing m₁ m₂ with
  | nil => exact ⟨fun _ => none, rfl, rfl, rfl, rfl⟩
  | cons st rest ih =>
    cases h1 : st.exec m₁ with
    | mk o1 n1 =>
      have hex : b = true ∨ (st.exec m₁).1 = true := by
        rcases hb with hb | hb
        · exact .inl hb
        · right
          rw [h1]
          cases o1 with
          | true => rfl
          | false => unfold bootRun at hb; rw [h1] at hb; cases hb
      obtain ⟨w, g1, g2, g3⟩ := exec_track st b m₁ m₂ hr hex
      cases h2 : st.exec m₂ with
      | mk o2 n2 =>
        rw [h1, h2] at g1
        rw [h1] at g2
        rw [h2] at g3
        dsimp only at g1 g2 g3
        subst g1 g2 g3
        cases o1 with
        | false =>
          unfold bootRun
          rw [h1, h2]
          exact ⟨w, rfl, rfl, rfl, rfl⟩
        | true =>
          unfold bootRun at hb ⊢
          rw [h1] at hb
          rw [h1, h2]
          obtain ⟨v, k1, k2, k3, k4⟩ := ih _ _ (hr.overwrite w) hb
          exact ⟨fun x => (v x).or (w x), by simp only [k1], k2, by
            simp only [k3, overwrite_overwrite], by simp only [k4, overwrite_overwrite]⟩

/-- **C66**, for a whole boot sequence of any calls. -/
theorem C66_sequence (steps : List BootStep) (m₁ m₂ : Mem) (h : SameLayout m₁ m₂) :
    (bootRun steps m₁).1 = (bootRun steps m₂).1 ∧
    (bootRun steps m₁).2.1 = (bootRun steps m₂).2.1 ∧
    SameEffect m₁ (bootRun steps m₁).2.2 m₂ (bootRun steps m₂).2.2 := by
  obtain ⟨w, h1, h2, h3, h4⟩ := bootRun_track steps true m₁ m₂ (SameMap.ofLayout h) (.inl rfl)
  exact ⟨h1, h2, by rw [h3, h4]; exact sameEffect_overwrite _ _ _⟩

/-- **C67**, for a whole boot sequence: preparing the same guest again has the same outcome and leaves
memory as it is. -/
theorem C67_sequence (steps : List BootStep) (m : Mem) :
    bootRun steps (bootRun steps m).2.2 = bootRun steps m := by
  obtain ⟨w0, -, -, e, -⟩ := bootRun_track steps true m m (SameMap.ofLayout ⟨rfl, rfl⟩) (.inl rfl)
  obtain ⟨w, h1, h2, h3, h4⟩ := bootRun_track steps true m (bootRun steps m).2.2 (by
    rw [e]; exact SameMap.ofLayout ⟨rfl, rfl⟩) (.inl rfl)
  have h5 : (bootRun steps (bootRun steps m).2.2).2.2 = (bootRun steps m).2.2 := by
    rw [h4, h3, overwrite_idem]
  exact Prod.ext h1.symm (Prod.ext h2.symm h5)

/-- **C68**, for a whole boot sequence. -/
theorem C68_sequence (steps : List BootStep) (m₁ m₂ : Mem) (hw : m₁.WF) (h : MapsMore m₁ m₂)
    (hok : (bootRun steps m₁).2.1 = true) :
    (bootRun steps m₂).2.1 = true ∧
    SameEffect m₁ (bootRun steps m₁).2.2 m₂ (bootRun steps m₂).2.2 := by
  obtain ⟨w, -, h2, h3, h4⟩ := bootRun_track steps false m₁ m₂ ⟨hw, h⟩ (.inr hok)
  exact ⟨h2.symm.trans hok, by rw [h3, h4]; exact sameEffect_overwrite _ _ _⟩

/-- The memory of `Props/Boot.lean` with a further region. -/
def moreMem : Mem := { bootMem with regions := ⟨0x1400, 0x1000⟩ :: bootMem.regions }

/-- Non-vacuity: three calls of the boot sequence of `Props/Boot.lean` succeed, also with more memory
(where the fourth succeeds, too) and with other contents. -/
example : (bootRun (bootSteps.take 3) bootMem).2.1 = true ∧
    (bootRun (bootSteps.take 3) moreMem).2.1 = true ∧ (bootRun bootSteps moreMem).2.1 = true ∧
    (bootRun (bootSteps.take 3) { bootMem with data := fun x => UInt8.ofNat (x + 1) }).2.1 = true := by
  decide +kernel

/-- The memories of the example are related as the theorems require. -/
example : MapsMore bootMem moreMem ∧
    SameLayout bootMem { bootMem with data := fun x => UInt8.ofNat (x + 1) } := by
  refine ⟨⟨fun x hx => ?_, rfl⟩, rfl, rfl⟩
  unfold moreMem Mem.mapped at *
  simp only [List.any_cons, Bool.or_eq_true]
  exact .inr hx

example := C66_sequence bootSteps bootMem { bootMem with data := fun x => UInt8.ofNat (x + 1) } ⟨rfl, rfl⟩

end LinuxLoader
