import Verif.Spec.Kernel

/-!
# Specification vocabulary: what the kernel makes of a command line

`start_kernel` (init/main.c, Linux) runs `parse_args` on the line and again on what follows a lone `--`.
-/

namespace LinuxLoader.Spec.Kernel

/-- The parameters of the kernel and the arguments of init, with their values. -/
def kernelView (s : Str) : List (Str × Option Str) × List (Str × Option Str) :=
  ((parseArgs s).1, match (parseArgs s).2 with | some t => (parseArgs t).1 | none => [])

/-- ASCII. -/
def Ascii (s : Str) : Prop := ∀ c ∈ s, c.toNat < 0x80

instance (s : Str) : Decidable (Ascii s) := by unfold Ascii; infer_instance

end LinuxLoader.Spec.Kernel
