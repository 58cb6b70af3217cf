import Verif.Spec.Boot

/-!
# Specification vocabulary: trying again

After a failure a VMM may call again, with a fresh reader of the same image.
-/

namespace LinuxLoader.Spec

/-- The same call with the same arguments. Of the reader only the contents are the same: its position,
and which of its operations fail or come up short, can be different. -/
def SameCall : BootStep → BootStep → Prop
  | .elf rd k h, .elf rd' k' h' => rd.data = rd'.data ∧ k = k' ∧ h = h'
  | .bz rd k h, .bz rd' k' h' => rd.data = rd'.data ∧ k = k' ∧ h = h'
  | .pe arch rd k h, .pe arch' rd' k' h' => arch = arch' ∧ rd.data = rd'.data ∧ k = k' ∧ h = h'
  | .dtb rd a, .dtb rd' a' => rd.data = rd'.data ∧ a = a'
  | s, t => s = t

/-- Guest memory after several attempts at a boot sequence, each stopped at its first failure. -/
def afterAttempts (attempts : List (List BootStep)) (m : Mem) : Mem :=
  attempts.foldl (fun m steps => (bootRun steps m).2.2) m

/-- Calls in order, each tried a few times before the attempt that counts: whether these all succeed, and
guest memory at the end. -/
def persist : List (List BootStep × BootStep) → Mem → Bool × Mem
  | [], m => (true, m)
  | (tries, st) :: rest, m =>
    let (ok, m') := st.exec (tries.foldl (fun m t => (t.exec m).2) m)
    let (ok', m'') := persist rest m'
    (ok && ok', m'')

end LinuxLoader.Spec
