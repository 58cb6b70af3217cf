import Verif.Spec.AnyReader
import Verif.Spec.Incremental

/-!
# Specification vocabulary: memory of the VMM that the crate uses

A loader gets bytes either into guest memory or into a buffer of its own; the size of the buffer is that of
the request.
-/

namespace LinuxLoader.Spec

/-- The size of the loader's own buffer that a request fills. -/
def bufferSize : RdOp → Nat
  | .readExact n => n
  | .readVolatile n => n
  | _ => 0

/-- The sizes of all buffers filled. -/
def buffers (log : List (RdOp × Answer)) : List Nat := log.map fun e => bufferSize e.1

/-- A request for a program header, which `Elf::load` keeps until it returns. -/
def IsPhdrRequest (e : RdOp × Answer) : Prop := e.1 = .readExact 56

instance (e : RdOp × Answer) : Decidable (IsPhdrRequest e) := by unfold IsPhdrRequest; infer_instance

end LinuxLoader.Spec
