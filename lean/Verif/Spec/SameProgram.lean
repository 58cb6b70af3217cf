import Verif.Spec.Build

/-! # When two executables are the same program -/

namespace LinuxLoader.Spec

/-- Two executables with the same entry point, the same bytes at the same addresses, the same highest end
in memory and the same notes. How the bytes are divided into segments, and in which order these are
listed, is left open. -/
structure SameProgram (x y : Exe) : Prop where
  entry : x.entry = y.entry
  bytes : ∀ a, lastPiece (x.pieces none) a = lastPiece (y.pieces none) a
  highest : ∀ v, IsMaxOf v (x.ends none) ↔ IsMaxOf v (y.ends none)
  notes : x.noteLists = y.noteLists

/-- The loaded bytes of segments are nowhere at the same address. -/
def Seg.Apart (g h : Seg) : Prop :=
  ∀ p q, g.piece none = some p → h.piece none = some q →
    ∀ a, ¬ (InRange p.1 p.2.length a ∧ InRange q.1 q.2.length a)

end LinuxLoader.Spec
