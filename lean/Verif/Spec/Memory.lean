import Verif.Model.GuestMem

/-! # Specification vocabulary for guest memory -/

namespace LinuxLoader.Spec

/-- The bytes `bs` are in memory `f` at address `a`. -/
def Holds (f : Nat → UInt8) (a : Nat) (bs : List UInt8) : Prop :=
  ∀ i b, bs[i]? = some b → f (a + i) = b

/-- Addresses of a range of `n` bytes at `a`. -/
def InRange (a n x : Nat) : Prop := a ≤ x ∧ x < a + n

instance (a n x : Nat) : Decidable (InRange a n x) := by unfold InRange; infer_instance

/-- Every address of the range is mapped guest memory. -/
def Mapped (m : Mem) (a n : Nat) : Prop := ∀ x, InRange a n x → m.mapped x = true

/-- The range can be accessed: every address is mapped; an empty range is accessible if the memory
allows empty accesses anywhere or its start is mapped. -/
def Accessible (m : Mem) (a n : Nat) : Prop :=
  Mapped m a n ∧ (n = 0 → m.emptyOk = true ∨ m.mapped a = true)

/-- Same regions (only contents may differ). -/
def SameLayout (m m' : Mem) : Prop := m'.regions = m.regions ∧ m'.emptyOk = m.emptyOk

/-- `m'` is `m` with the bytes `bs` at `a` and nothing else changed. -/
def Stored (m m' : Mem) (a : Nat) (bs : List UInt8) : Prop :=
  SameLayout m m' ∧ Holds m'.data a bs ∧ ∀ x, ¬ InRange a bs.length x → m'.data x = m.data x

/-- `m'` is `m` except that some prefix of `bs`, all of it in mapped memory, has been stored at `a`. -/
def PrefixStored (m m' : Mem) (a : Nat) (bs : List UInt8) : Prop :=
  ∃ k, k ≤ bs.length ∧ Mapped m a k ∧ Stored m m' a (bs.take k)

/-- The value the last of several overlapping pieces (address, bytes) gives to address `x`. -/
def lastPiece : List (Nat × List UInt8) → Nat → Option UInt8
  | [], _ => none
  | (a, bs) :: rest, x =>
    match lastPiece rest x with
    | some b => some b
    | none => if a ≤ x then bs[x - a]? else none

/-- `L` is the highest mapped address. -/
def IsLast (m : Mem) (L : Nat) : Prop := m.mapped L = true ∧ ∀ x, m.mapped x = true → x ≤ L

end LinuxLoader.Spec
