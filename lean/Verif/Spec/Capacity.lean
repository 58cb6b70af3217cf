import Verif.Spec.Cmdline

/-! # Specification vocabulary: the capacity that a command line needs -/

namespace LinuxLoader.Spec
open Cmdline (Op)

/-- A call whose arguments are legal and not blank. -/
def LegalCall : Op → Prop
  | .insert k v => LegalKey k ∧ LegalValue v
  | .insertMultiple k vs => LegalKey k ∧ vs ≠ [] ∧ ∀ v ∈ vs, LegalValue v
  | .insertStr s => ∃ t, Trimmed s t ∧ Printable t ∧ t ≠ []
  | .insertInitArgs s => ∃ t, Trimmed s t ∧ Printable t ∧ t ≠ []
  | .addVirtio size _ _ _ => size ≠ 0

/-- The texts of boot and init arguments of calls, in call order. -/
inductive Texts : List Op → List Str → List Str → Prop
  | nil : Texts [] [] []
  | boot {op ops bs is t} : BootText op t → Texts ops bs is → Texts (op :: ops) (t :: bs) is
  | init {op ops bs is t} : InitText op t → Texts ops bs is → Texts (op :: ops) bs (t :: is)

/-- Every call is accepted. -/
def AllAccepted : Cmdline → List Op → Prop
  | _, [] => True
  | c, op :: ops => (c.step op).2 = .ok () ∧ AllAccepted (c.step op).1 ops

/-- The characters of arguments, each with the space or NUL behind it. -/
def room (ts : List Str) : Nat := (ts.map fun t => t.length + 1).sum

/-- The capacity needed: the boot arguments, or at least the NUL; and if there are init arguments these, with `-- ` in
front. -/
def capacityNeeded (boots inits : List Str) : Nat :=
  max 1 (room boots) + if inits = [] then 0 else 3 + room inits

end LinuxLoader.Spec
