import Verif.Model.Cmdline
import Verif.Spec.Cmdline

/-! # Specification vocabulary: batches of insertions -/

namespace LinuxLoader
namespace Spec
open Cmdline

/-- The command line after one call of `insert_str` or `insert_init_args` (`init`), if it is accepted. -/
def accept (init : Bool) (c : Cmdline) (s : Str) : Option Cmdline :=
  let r := if init then c.insertInitArgs s else c.insertStr s
  if r.2 = .ok () then some r.1 else none

/-- The command line after a call for every string of the list, if all of them are accepted. -/
def acceptAll (init : Bool) : Cmdline → List Str → Option Cmdline
  | c, [] => some c
  | c, s :: ss => (accept init c s).bind fun c' => acceptAll init c' ss

/-- No white space at the ends, and not empty. -/
def Solid (s : Str) : Prop := Trimmed s s ∧ s ≠ []

end Spec
end LinuxLoader
