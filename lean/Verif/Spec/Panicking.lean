import Verif.Model.Panicking
import Verif.Spec.AnyReader

/-!
# Specification vocabulary: a panic reaches the caller, and nothing happens after it
-/

namespace LinuxLoader.Spec

/-- The reader `R`, failing with an error wherever `panics` says. -/
def failingInstead (R : AnyReader) (panics : List RdOp → RdOp → Bool) : AnyReader :=
  { R with fails := fun before o => R.fails before o || panics before o }

/-- The last request of `log` is one at which the reader panics. -/
def EndsInPanic (panics : List RdOp → RdOp → Bool) (log : List (RdOp × Answer)) : Prop :=
  ∃ before o, log = before ++ [(o, .failed)] ∧ panics (before.map Prod.fst) o = true

/-- A call with a reader that panics (`out`), and the same call with a reader that fails instead (`out'`):
the same requests, and the same guest memory afterwards. If the last request is one at which the reader
panics, the call panics where the other one returns an error; otherwise the outcomes are the same. -/
structure PanicsThrough {ε α : Type} (panics : List RdOp → RdOp → Bool) (out out' : Res ε α × AnyState) :
    Prop where
  state : out.2 = out'.2
  atPanic : EndsInPanic panics out'.2.log → out.1 = .panic ∧ ∃ e, out'.1 = .err e
  otherwise : ¬ EndsInPanic panics out'.2.log → out.1 = out'.1

/-- No request of `log` is one at which guest memory panics. -/
def NoneOf (panics : List MemReq → MemReq → Bool) (log : MemLog) : Prop :=
  ∀ before o a after, log = before ++ (o, a) :: after → panics (before.map Prod.fst) o = false

/-- A call with a guest memory that panics (`out`), and the same call with one that does not (`out'`). The
same, up to the first request at which the former panics: there the call panics, and makes no further
request. -/
structure CutAtPanic {ε α : Type} (panics : List MemReq → MemReq → Bool) (out out' : Res ε α × MemLog) :
    Prop where
  cut : ∀ before o a after, out'.2 = before ++ (o, a) :: after → NoneOf panics before →
    panics (before.map Prod.fst) o = true → out = (.panic, before ++ [(o, .failed)])
  otherwise : NoneOf panics out'.2 → out = out'

end LinuxLoader.Spec
