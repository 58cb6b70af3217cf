import Verif.Model.RawIo
import Verif.Spec.Elf

/-! # Specification vocabulary: sequences of system calls -/

namespace LinuxLoader

/-- All reads deliver as much as there is. -/
def RawLS.Full (s : RawLS) : Prop := ∀ i k, s.raw i = .give k → s.data.length ≤ k + 1

/-- No call fails or is interrupted (reads may be short). -/
def RawLS.Smooth (s : RawLS) : Prop := ∀ i, ∃ k, s.raw i = .give k

/-- Calls are not interrupted for ever. -/
def RawLS.Recovers (s : RawLS) : Prop := ∀ i, ∃ j, i ≤ j ∧ s.raw j ≠ .intr

/-- The events of the I/O contract among which there are only failures of operations. -/
def OnlyFails (sched : Nat → IoEvent) : Prop := ∀ i, sched i = .ok ∨ ∃ k, sched i = .fail k

/-- Every operation works, but a single read may deliver fewer bytes than there are. -/
def OnlyShort (sched : Nat → IoEvent) : Prop := ∀ i, sched i = .ok ∨ ∃ k, sched i = .short k

/-- The loader of the contract in the same situation, with given events. -/
def RawLS.with (s : RawLS) (sched : Nat → IoEvent) : LS := ⟨⟨s.data, s.pos, sched, 0⟩, s.mem⟩

/-- Every run of `x` over system calls that ends is one of the runs of `y` over the I/O contract: same
outcome, same memory. Short reads are visible only if there are any, and misplaced bytes only with
`get_slices` and several memory regions. -/
def CoveredBy {ε α : Type} (cfg : RawCfg) (x : LM RawLS ε α) (y : LM LS ε α) : Prop :=
  ∀ s : RawLS, s.mem.emptyOk = cfg.slices → (x s).2.hung = false →
    ∃ sched, (y (s.with sched)).1 = (x s).1 ∧ (y (s.with sched)).2.mem = (x s).2.mem ∧
      (s.Full → OnlyFails sched) ∧
      (cfg.slices = false ∨ s.mem.regions.length ≤ 1 → Spec.NoScatter (s.with sched))

/-- If no call fails or is interrupted, and either reads are full or memory is accessed with
`try_access`, every run of `x` that ends is the run of `y` with a reader without faults. -/
def Undisturbed {ε α : Type} (cfg : RawCfg) (x : LM RawLS ε α) (y : LM LS ε α) : Prop :=
  ∀ s : RawLS, s.mem.emptyOk = cfg.slices → (x s).2.hung = false → s.Smooth →
    (cfg.slices = false ∨ s.Full) →
    (y (s.with fun _ => .ok)).1 = (x s).1 ∧ (y (s.with fun _ => .ok)).2.mem = (x s).2.mem

/-- Every successful run of `x`, whatever errors, interruptions or short reads it went through, gives the
result and the memory contents of `y` with a reader without faults. -/
def SuccessFaultFree {ε α : Type} (cfg : RawCfg) (x : LM RawLS ε α) (y : LM LS ε α) : Prop :=
  ∀ s : RawLS, s.mem.emptyOk = cfg.slices → (x s).2.hung = false →
    ∀ a, (x s).1 = .ok a →
      (y (s.with fun _ => .ok)).1 = .ok a ∧ (y (s.with fun _ => .ok)).2.mem = (x s).2.mem

/-- If calls are not interrupted for ever, `x` ends, and its result does not depend on the bound. -/
def Terminates {ε α : Type} (slices : Bool) (x : RawCfg → LM RawLS ε α) : Prop :=
  ∀ s : RawLS, s.hung = false → s.Recovers →
    ∃ bound r, r.2.hung = false ∧ ∀ fuel, bound ≤ fuel → x ⟨fuel, slices⟩ s = r

end LinuxLoader
