import Verif.Model.Types
import Verif.Model.Bytes

/-!
# Specification: memory images of values

A value of a type is given by the integers it is made of. A byte string is a memory image of the value if it has
the size of the type and each integer is in little-endian at its place; nothing is said about other bytes
(padding), which in Rust are uninitialised and may hold anything.
-/

namespace LinuxLoader.Spec
open Layout Types

mutual
/-- Offset and size of each integer of a type, in order. -/
def leaves : Ty → List (Nat × Nat)
  | .int n => [(0, n)]
  | .arr t n => (List.range n).flatMap fun i => (leaves t).map fun p => (i * t.layout.size + p.1, p.2)
  | .struct cap fs => fieldLeaves cap 0 fs
/-- Those of fields, the first of which follows `off` bytes of earlier fields. -/
def fieldLeaves (cap : Nat) : Nat → Fields → List (Nat × Nat)
  | _, .nil => []
  | off, .cons _ t rest =>
    let o := roundUp off (min cap t.layout.align)
    (leaves t).map (fun p => (o + p.1, p.2)) ++ fieldLeaves cap (o + t.layout.size) rest
end

/-- The integers found in a byte string. -/
def valuesIn (t : Ty) (b : List UInt8) : List Nat := (leaves t).map fun p => leField b p.1 p.2

/-- `vs` are the integers of a value of the type: as many as it has, each in its range. -/
def IsValue (t : Ty) (vs : List Nat) : Prop :=
  vs.length = (leaves t).length ∧ ∀ (i v : Nat) (p : Nat × Nat), vs[i]? = some v → (leaves t)[i]? = some p → v < 256 ^ p.2

/-- `b` is a memory image of the value. -/
def IsImage (t : Ty) (vs : List Nat) (b : List UInt8) : Prop :=
  b.length = t.layout.size ∧ valuesIn t b = vs

/-- The integers lie directly one behind the other from `a` to `e`. -/
def Tiles : List (Nat × Nat) → Nat → Nat → Prop
  | [], a, e => a = e
  | (o, n) :: r, a, e => o = a ∧ Tiles r (a + n) e

instance : ∀ l a e, Decidable (Tiles l a e)
  | [], a, e => inferInstanceAs (Decidable (a = e))
  | (o, n) :: r, a, e =>
    have : Decidable (Tiles r (a + n) e) := instDecidableTiles r (a + n) e
    inferInstanceAs (Decidable (o = a ∧ Tiles r (a + n) e))

/-- No byte of the type belongs to no integer, or to two. -/
def NoPadding (t : Ty) : Prop := Tiles (leaves t) 0 t.layout.size

end LinuxLoader.Spec
