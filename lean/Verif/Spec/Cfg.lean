import Verif.Model.Cfg

/-!
# Specification vocabulary for C110: configurations that a VMM can ask for
-/

namespace LinuxLoader.Spec

/-- The configuration that results when the VMM asks Cargo for the features `req` on an architecture. -/
def built (req : Feature → Bool) (t : Option Target) : Config := ⟨cargoFeatures req, t⟩

/-- An x86 architecture. -/
def OnX86 (t : Option Target) : Prop := t = some .x86 ∨ t = some .x86_64

/-- An architecture whose kernels are PE images. -/
def OnArm (t : Option Target) : Prop := t = some .aarch64 ∨ t = some .riscv64

/-- Some feature is asked for. -/
def AnyFeature (req : Feature → Bool) : Prop := ∃ f, req f = true

/-- Asking for at least the same features. -/
def MoreFeatures (a b : Feature → Bool) : Prop := ∀ f, a f = true → b f = true

end LinuxLoader.Spec
