import Verif.Model.Reader
import Verif.Spec.Memory

/-!
# Specification vocabulary: how a call depends on guest memory

`f` stands for a loader or configurator call; the reader `rd` is part of the call's input. Two calls
with the same `rd` read the same image and meet the same I/O faults.
-/

namespace LinuxLoader.Spec

/-- What two runs of the same call, from memory `m₁` to `m₁'` and from `m₂` to `m₂'`, do to an address:
both leave it alone, or both give it the same contents. -/
def SameEffect (m₁ m₁' m₂ m₂' : Mem) : Prop :=
  ∀ x, (m₁'.data x = m₁.data x ∧ m₂'.data x = m₂.data x) ∨ m₁'.data x = m₂'.data x

/-- `m₂` maps every address that `m₁` maps. -/
def MapsMore (m₁ m₂ : Mem) : Prop :=
  (∀ x, m₁.mapped x = true → m₂.mapped x = true) ∧ m₂.emptyOk = m₁.emptyOk

/-- The same addresses are mapped, however they are divided into regions. -/
def SameAddresses (m₁ m₂ : Mem) : Prop :=
  (∀ x, m₂.mapped x = m₁.mapped x) ∧ m₂.emptyOk = m₁.emptyOk

/-- Outcome and effect of a call do not depend on how guest memory is divided into regions: two guests
with the same mapped addresses and contents have the same outcome and the same contents afterwards. -/
def RegionsIrrelevant {ε α : Type} (f : LM LS ε α) : Prop :=
  ∀ rd m₁ m₂, m₁.WF → m₂.WF → SameAddresses m₁ m₂ → (∀ x, m₁.mapped x = true → m₂.data x = m₁.data x) →
    (f ⟨rd, m₁⟩).1 = (f ⟨rd, m₂⟩).1 ∧ (f ⟨rd, m₁⟩).2.rd = (f ⟨rd, m₂⟩).2.rd ∧
    ∀ x, m₁.mapped x = true → (f ⟨rd, m₂⟩).2.mem.data x = (f ⟨rd, m₁⟩).2.mem.data x

/-- The same for calls without a reader. -/
def RegionsIrrelevantM {ε α : Type} (f : LM Mem ε α) : Prop :=
  ∀ m₁ m₂, m₁.WF → m₂.WF → SameAddresses m₁ m₂ → (∀ x, m₁.mapped x = true → m₂.data x = m₁.data x) →
    (f m₁).1 = (f m₂).1 ∧ ∀ x, m₁.mapped x = true → (f m₂).2.data x = (f m₁).2.data x

/-- Outcome and effect of a call do not depend on what was in guest memory before, be the call
successful or not. -/
def ContentsIrrelevant {ε α : Type} (f : LM LS ε α) : Prop :=
  ∀ rd m₁ m₂, SameLayout m₁ m₂ →
    (f ⟨rd, m₁⟩).1 = (f ⟨rd, m₂⟩).1 ∧ (f ⟨rd, m₁⟩).2.rd = (f ⟨rd, m₂⟩).2.rd ∧
    SameEffect m₁ (f ⟨rd, m₁⟩).2.mem m₂ (f ⟨rd, m₂⟩).2.mem

/-- The same for calls without a reader. -/
def ContentsIrrelevantM {ε α : Type} (f : LM Mem ε α) : Prop :=
  ∀ m₁ m₂, SameLayout m₁ m₂ → (f m₁).1 = (f m₂).1 ∧ SameEffect m₁ (f m₁).2 m₂ (f m₂).2

/-- Repeating a call (with a fresh reader on the same image, meeting the same faults) has the same
outcome and changes nothing any more, be the call successful or not. -/
def Repeatable {ε α : Type} (f : LM LS ε α) : Prop :=
  ∀ rd m, f ⟨rd, (f ⟨rd, m⟩).2.mem⟩ = f ⟨rd, m⟩

/-- The same for calls without a reader. -/
def RepeatableM {ε α : Type} (f : LM Mem ε α) : Prop := ∀ m, f (f m).2 = f m

/-- A call that succeeds also succeeds, with the same result and effect, if more memory is mapped. -/
def MoreMemoryHarmless {ε α : Type} (f : LM LS ε α) : Prop :=
  ∀ rd m₁ m₂ r s₁, m₁.WF → MapsMore m₁ m₂ → f ⟨rd, m₁⟩ = (.ok r, s₁) →
    ∃ s₂, f ⟨rd, m₂⟩ = (.ok r, s₂) ∧ SameEffect m₁ s₁.mem m₂ s₂.mem

/-- The same for calls without a reader. -/
def MoreMemoryHarmlessM {ε α : Type} (f : LM Mem ε α) : Prop :=
  ∀ m₁ m₂ r m₁', m₁.WF → MapsMore m₁ m₂ → f m₁ = (.ok r, m₁') →
    ∃ m₂', f m₂ = (.ok r, m₂') ∧ SameEffect m₁ m₁' m₂ m₂'

end LinuxLoader.Spec
