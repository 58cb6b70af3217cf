import Verif.Spec.Boot

/-!
# Specification vocabulary: how far a call got

A call stores its pieces (address, bytes) one after the other, each of them from its first byte on. What
an interrupted call leaves behind is therefore a beginning of what it would have stored.
-/

namespace LinuxLoader.Spec

/-- The first `k` pieces, and the first `j` bytes of the next one. -/
def beginning (ps : List (Nat × List UInt8)) (k j : Nat) : List (Nat × List UInt8) :=
  ps.take k ++ ((ps.drop k).take 1).map fun q => (q.1, q.2.take j)

/-- `m'` is `m` with these pieces on it, later ones on top of earlier ones, and nothing else changed. -/
def Overlaid (ps : List (Nat × List UInt8)) (m m' : Mem) : Prop :=
  SameLayout m m' ∧ ∀ x, m'.data x = (lastPiece ps x).getD (m.data x)

/-- Some beginning of the pieces is in memory: all of the first `k` pieces and `j` bytes of the next. -/
def LeftBehind (ps : List (Nat × List UInt8)) (m m' : Mem) : Prop :=
  ∃ k j, Overlaid (beginning ps k j) m m'

/-- `j` of `n` bytes at `a` come before the first address that is not mapped. -/
def Reach (m : Mem) (a n j : Nat) : Prop :=
  j ≤ n ∧ Mapped m a j ∧ (j < n → m.mapped (a + j) = false)

/-- As `LeftBehind`, where the last piece has not been cut off anywhere but at unmapped memory: `j` is 0
or goes up to the first unmapped address (or to the end of the piece). -/
def StoppedAt (ps : List (Nat × List UInt8)) (m m' : Mem) : Prop :=
  ∃ k j, Overlaid (beginning ps k j) m m' ∧
    ∀ q, ps[k]? = some q → j = 0 ∨ Reach m q.1 q.2.length j

/-- Exactly the first `k` pieces are in memory and, if `cut`, the next one up to the first unmapped
address, otherwise nothing of it. -/
def LeftExactly (ps : List (Nat × List UInt8)) (k : Nat) (cut : Prop) (m m' : Mem) : Prop :=
  ∃ j, Overlaid (beginning ps k j) m m' ∧
    (cut → ∀ q, ps[k]? = some q → Reach m q.1 q.2.length j) ∧ (¬ cut → j = 0)

/-- How many of the pieces of PVH boot parameters (memory map, start info, modules) are complete when
`write_bootparams` fails with this error. -/
def pvhComplete : PvhError → Nat
  | .startInfoPastRamEnd | .startInfoSetup => 1
  | .modulesAddressMissing | .modulesSetup => 2
  | _ => 0

/-- The errors of PVH `write_bootparams` that come from writing a piece. -/
def pvhCut (e : PvhError) : Prop := e = .memmapTableSetup ∨ e = .startInfoSetup ∨ e = .modulesSetup

/-- No transfer of the call's reader puts bytes at the wrong address (see `NoScatter`). -/
def BootStep.Straight : BootStep → Prop
  | .elf rd _ _ | .bz rd _ _ | .pe _ rd _ _ | .dtb rd _ => ∀ i w, rd.sched i ≠ .scatter w
  | _ => True

/-- The call's reader works without I/O errors and short reads. -/
def BootStep.Faultless : BootStep → Prop
  | .elf rd _ _ | .bz rd _ _ | .pe _ rd _ _ | .dtb rd _ => ∀ i, rd.sched i = .ok
  | _ => True

/-- What a call that stops at program header `h` with error `e` has stored of it: nothing if the error
comes before the transfer, what there is up to the first unmapped address (`j` bytes) if the transfer
fails, all of it if the error comes after the transfer. -/
def stoppedPiece (img : List UInt8) (koff : Option GuestAddr) (h : Phdr) (e : LoadError) (j : Nat) :
    List (Nat × List UInt8) :=
  if e = .memoryOverflow then [(koffBase koff + h.paddr, h.contents img)]
  else if e = .elf .readKernelImage then [(koffBase koff + h.paddr, (h.contents img).take j)]
  else []

end LinuxLoader.Spec
