import Verif.Spec.BootParams

/-! # Specification vocabulary for the PVH configurator -/

namespace LinuxLoader.Spec

/-- The first obstacle of a list of obstacles (error, condition), if any. -/
inductive FirstObstacle {ε : Type} : List (ε × Prop) → Option ε → Prop
  | none : FirstObstacle [] none
  | here {e P l} : P → FirstObstacle ((e, P) :: l) (some e)
  | later {e P l r} : ¬ P → FirstObstacle l r → FirstObstacle ((e, P) :: l) r

/-- What can prevent the PVH boot parameters `p` from being written to memory `m`, in the order in
which it is reported. Note that a memory map or start info must be followed by a mapped byte. -/
def pvhObstacles (p : BootParams) (m : Mem) : List (PvhError × Prop) :=
  [(.memmapTableMissing, p.sections = none),
   (.memmapTableAddressMissing, p.sectionsStart = none),
   (.memmapTablePastRamEnd, ∃ b a, p.sections = some b ∧ p.sectionsStart = some a ∧
      m.mapped (a.toNat + b.length) = false),
   (.memmapTableSetup, ∃ b a, p.sections = some b ∧ p.sectionsStart = some a ∧
      ¬ Mapped m a.toNat b.length),
   (.startInfoPastRamEnd, m.mapped (p.headerStart.toNat + p.header.length) = false),
   (.startInfoSetup, ¬ Mapped m p.headerStart.toNat p.header.length),
   (.modulesAddressMissing, p.modules ≠ none ∧ p.modulesStart = none),
   (.modulesSetup, ∃ b a, p.modules = some b ∧ p.modulesStart = some a ∧
      ¬ Accessible m a.toNat b.length)]

/-- The piece made of an optional buffer and its optional address. -/
def optPiece (bytes : Option (List UInt8)) (start : Option GuestAddr) : List (Nat × List UInt8) :=
  match bytes, start with
  | some b, some a => [(a.toNat, b)]
  | _, _ => []

/-- What PVH boot parameters put into memory, in the order of writing: memory map, start info,
modules. -/
def pvhPieces (p : BootParams) : List (Nat × List UInt8) :=
  optPiece p.sections p.sectionsStart ++ [(p.headerStart.toNat, p.header)] ++
    optPiece p.modules p.modulesStart

/-- `x` is in the range of one of the pieces. -/
def InPieces (ps : List (Nat × List UInt8)) (x : Nat) : Prop :=
  ∃ q ∈ ps, InRange q.1 q.2.length x

end LinuxLoader.Spec
