import Verif.Spec.Pvh

/-! # Vocabulary for boot parameters built call by call -/

namespace LinuxLoader.Spec

/-- The pieces occupy the addresses from `a`, the address of the first of them, to `e`, where the last of
them ends. -/
def Span (pieces : List (Nat × List UInt8)) (a e : Nat) : Prop :=
  (∃ bs rest, pieces = (a, bs) :: rest) ∧ (∃ p ∈ pieces, p.1 + p.2.length = e) ∧
    ∀ p ∈ pieces, p.1 + p.2.length ≤ e

/-- `x` is among these addresses. -/
def Spanned (pieces : List (Nat × List UInt8)) (x : Nat) : Prop := ∃ a e, Span pieces a e ∧ a ≤ x ∧ x < e

/-- A call about modules. -/
def AboutModules : ParamOp → Prop
  | .setModules .. => True
  | .addModule .. => True
  | _ => False

end LinuxLoader.Spec
