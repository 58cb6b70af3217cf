import Verif.Spec.Cfg

/-!
# C110: features and architectures
-/

namespace LinuxLoader

open Spec

/-! ## Deciding over all configurations -/

/-- Feature sets, as triples. -/
def featSet (e b p : Bool) : Feature → Bool
  | .elf => e
  | .bzimage => b
  | .pe => p

theorem featSet_eq (req : Feature → Bool) : req = featSet (req .elf) (req .bzimage) (req .pe) := by
  funext f; cases f <;> rfl

/-- A decidable statement about configurations holds for all if it holds for the 40 of them. -/
theorem forall_built {P : (Feature → Bool) → Option Target → Prop}
    (h : ∀ e b p : Bool, P (featSet e b p) none ∧ P (featSet e b p) (some .x86) ∧ P (featSet e b p) (some .x86_64) ∧
      P (featSet e b p) (some .aarch64) ∧ P (featSet e b p) (some .riscv64)) (req : Feature → Bool)
    (t : Option Target) : P req t := by
  rw [featSet_eq req]
  obtain ⟨h0, h1, h2, h3, h4⟩ := h (req .elf) (req .bzimage) (req .pe)
  cases t with
  | none => exact h0
  | some t => cases t <;> assumption

/-- The items are finitely many. -/
def allVariants : List Variant := [.bzimage, .elf, .pe, .linux, .pvh, .fdt]

def allItems : List Item :=
  [.cmdline, .loader, .configurator, .configuratorX86, .loaderGen, .bootparam, .elfGen, .startInfo,
   .peMod, .elfMod, .bzMod, .linuxMod, .pvhMod, .fdtMod,
   .loaderError, .loaderResult, .kernelLoader, .loadCmdline, .reexportBootparam,
   .setupHeaderField, .pvhCapField, .fromElf, .fromBz, .fromPe, .bytesSetupHeader, .bytesBootParams,
   .elfLoader, .bzLoader, .peLoader, .loadDtb, .armHeader, .riscvHeader, .bytesArm, .bytesRiscv,
   .peLoadArm, .peLoadRiscv,
   .configError, .bootConfigurator, .bootParamsList, .linuxConfigurator, .pvhConfigurator, .fdtConfigurator,
   .bytesStartInfo, .fromLinux, .fromPvh, .fromFdt] ++
  allVariants.map .variant ++ allVariants.map .displayArm ++ allVariants.map .sourceArm

theorem mem_allItems (i : Item) : i ∈ allItems := by
  cases i with
  | variant v => cases v <;> decide
  | displayArm v => cases v <;> decide
  | sourceArm v => cases v <;> decide
  | _ => decide

/-! ## C110 -/

/-- **C110.** Whatever features are asked for and whatever the architecture, nothing that is compiled refers
to something that is not. -/
theorem C110_closed (req : Feature → Bool) (t : Option Target) {i j : Item} (hj : j ∈ i.uses)
    (hi : i.present (built req t) = true) : j.present (built req t) = true := by
  have key : ∀ i ∈ allItems, ∀ j ∈ i.uses, i.present (built req t) = true → j.present (built req t) = true := by
    refine forall_built (P := fun req t => ∀ i ∈ allItems, ∀ j ∈ i.uses, i.present (built req t) = true →
      j.present (built req t) = true) ?_ req t
    decide +kernel
  exact key i (mem_allItems i) j hj hi

/-- **C110.** What a configuration offers. -/
theorem C110_offers (req : Feature → Bool) (t : Option Target) :
    (Item.cmdline.present (built req t) = true ∧ Item.loadCmdline.present (built req t) = true ∧
      Item.kernelLoader.present (built req t) = true) ∧
    (Item.elfLoader.present (built req t) = true ↔ OnX86 t ∧ AnyFeature req) ∧
    (Item.bzLoader.present (built req t) = true ↔ OnX86 t ∧ req .bzimage = true) ∧
    (Item.peLoader.present (built req t) = true ↔ OnArm t ∧ req .pe = true) ∧
    (Item.loadDtb.present (built req t) = true ↔ OnArm t ∧ req .pe = true) ∧
    (Item.bootParamsList.present (built req t) = true ↔ AnyFeature req) ∧
    (Item.linuxConfigurator.present (built req t) = true ↔ OnX86 t ∧ AnyFeature req) ∧
    (Item.pvhConfigurator.present (built req t) = true ↔ OnX86 t ∧ AnyFeature req) ∧
    (Item.fdtConfigurator.present (built req t) = true ↔ OnArm t ∧ AnyFeature req) ∧
    (Item.bootparam.present (built req t) = true ↔ OnX86 t) ∧
    (Item.setupHeaderField.present (built req t) = true ↔ OnX86 t) ∧
    (Item.pvhCapField.present (built req t) = true ↔ OnX86 t ∧ AnyFeature req) := by
  have hany : AnyFeature req ↔ (req .elf = true ∨ req .bzimage = true ∨ req .pe = true) := by
    constructor
    · rintro ⟨f, hf⟩
      cases f with
      | elf => exact .inl hf
      | bzimage => exact .inr (.inl hf)
      | pe => exact .inr (.inr hf)
    · rintro (h | h | h) <;> exact ⟨_, h⟩
  rw [hany]
  unfold OnX86 OnArm
  rw [featSet_eq req]
  generalize req .elf = e
  generalize req .bzimage = b
  generalize req .pe = p
  have hx : t = none ∨ t = some .x86 ∨ t = some .x86_64 ∨ t = some .aarch64 ∨ t = some .riscv64 := by
    rcases t with _ | t
    · simp
    · cases t <;> simp
  refine ⟨⟨?_, ?_, ?_⟩, ?_, ?_, ?_, ?_, ?_, ?_, ?_, ?_, ?_, ?_, ?_⟩ <;>
    rcases hx with rfl | rfl | rfl | rfl | rfl <;> revert e b p <;> decide +kernel

/-- **C110.** The matches over the errors are complete, and have no arm for a variant that does not exist: in
every configuration the variants, the arms of `Display` and the arms of `source` are the same. -/
theorem C110_exhaustive (req : Feature → Bool) (t : Option Target) (v : Variant) :
    (Item.displayArm v).present (built req t) = (Item.variant v).present (built req t) ∧
    (Item.sourceArm v).present (built req t) = (Item.variant v).present (built req t) := by
  cases v <;> exact ⟨rfl, rfl⟩

theorem Cond.holds_mono {c d : Config} (ht : c.target = d.target) (hf : ∀ f, c.has f = true → d.has f = true) :
    ∀ {k : Cond}, k.holds c = true → k.holds d = true
  | .feature f, h => hf f h
  | .arch t, h => by unfold Cond.holds at h ⊢; rw [← ht]; exact h
  | .all a b, h => by
    unfold Cond.holds at h ⊢
    rw [Bool.and_eq_true] at h ⊢
    exact ⟨holds_mono ht hf h.1, holds_mono ht hf h.2⟩
  | .any a b, h => by
    unfold Cond.holds at h ⊢
    rw [Bool.or_eq_true] at h ⊢
    exact h.imp (holds_mono ht hf) (holds_mono ht hf)
  | .always, _ => rfl

/-- **C110.** Features are additive: asking for more never takes anything away. (Cargo builds the crate once
with all features that anybody asks for.) -/
theorem C110_additive {a b : Feature → Bool} (h : MoreFeatures a b) (t : Option Target) {i : Item}
    (hi : i.present (built a t) = true) : i.present (built b t) = true := by
  have hf : ∀ f, (built a t).has f = true → (built b t).has f = true := by
    intro f hf
    cases f with
    | elf =>
      simp only [built, cargoFeatures, Bool.or_eq_true] at hf ⊢
      exact hf.imp (Or.imp (h _) (h _)) (h _)
    | bzimage => exact h _ hf
    | pe => exact h _ hf
  unfold Item.present at hi ⊢
  rw [Bool.and_eq_true, List.all_eq_true] at hi ⊢
  have ht : (built a t).target = (built b t).target := rfl
  exact ⟨Cond.holds_mono ht hf hi.1, fun m hm => Cond.holds_mono ht hf (hi.2 m hm)⟩

/-- **C110 (refuted).** Additivity does not extend to code of the VMM that matches on every variant of
`loader::Error` or writes out every field of `KernelLoaderResult`: another feature adds a variant, and a
field, and neither type is `#[non_exhaustive]`. -/
theorem C110_additive_for_matches_refuted :
    (∃ (a b : Feature → Bool) (t : Option Target) (v : Variant), MoreFeatures a b ∧
      v.enumeration.present (built a t) = true ∧ (Item.variant v).present (built a t) = false ∧
      (Item.variant v).present (built b t) = true) ∧
    (∃ (a b : Feature → Bool) (t : Option Target), MoreFeatures a b ∧
      Item.loaderResult.present (built a t) = true ∧ Item.pvhCapField.present (built a t) = false ∧
      Item.pvhCapField.present (built b t) = true) :=
  ⟨⟨featSet true false false, featSet true true false, some .x86_64, .bzimage,
      (fun f hf => by cases f <;> first | exact hf | rfl), by decide +kernel, by decide +kernel, by decide +kernel⟩,
   ⟨featSet false false false, featSet true false false, some .x86_64,
      (fun f hf => by cases f <;> first | exact hf | rfl), by decide +kernel, by decide +kernel, by decide +kernel⟩⟩

/-- **C110 (refuted).** The sources alone are not enough: with the feature `pe` but without the feature `elf`,
which `Cargo.toml` adds, an x86-64 build would refer to the missing module `pvh`. -/
theorem C110_without_cargo_refuted : ∃ (c : Config) (i j : Item), j ∈ i.uses ∧ i.present c = true ∧
    j.present c = false :=
  ⟨⟨featSet false false true, some .x86_64⟩, .variant .pvh, .pvhMod, by decide +kernel, by decide +kernel,
    by decide +kernel⟩

/-- **C110.** A PE loader reads exactly one kind of header: on every architecture that has the loader, one of
the two header types and of the two sets of statements is compiled, and not both. -/
theorem C110_pe_header (req : Feature → Bool) (t : Option Target) (h : Item.peLoader.present (built req t) = true) :
    (Item.peLoadArm.present (built req t) = true ↔ t = some .aarch64) ∧
    (Item.peLoadRiscv.present (built req t) = true ↔ t = some .riscv64) ∧
    (t = some .aarch64 ∨ t = some .riscv64) := by
  revert h
  rw [featSet_eq req]
  generalize req .elf = e
  generalize req .bzimage = b
  generalize req .pe = p
  rcases t with _ | t
  · revert e b p; decide +kernel
  · cases t <;> revert e b p <;> decide +kernel

/-! ## Non-vacuity: the default features of the crate on x86-64 and on aarch64 -/

example := C110_closed (featSet false false true) (some .x86_64) (i := .pvhMod) (j := .startInfo) (by decide)
  (by decide +kernel)

example : Item.elfLoader.present (built (featSet false false true) (some .x86_64)) = true ∧
    Item.peLoader.present (built (featSet false false true) (some .x86_64)) = false ∧
    Item.peLoader.present (built (featSet false false true) (some .aarch64)) = true ∧
    Item.elfLoader.present (built (featSet false false true) (some .aarch64)) = false := by decide +kernel

example := C110_additive (a := featSet false false true) (b := featSet false true true)
  (fun f hf => by cases f <;> first | exact hf | rfl) (some .x86_64) (i := .elfLoader) (by decide +kernel)

example := C110_pe_header (featSet false false true) (some .riscv64) (by decide +kernel)

end LinuxLoader
