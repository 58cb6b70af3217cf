import Verif.Model.Trace
import Verif.Spec.Boot

/-!
# Specification vocabulary: threads that share guest memory

A thread makes calls one after the other, until one fails. Bytes are stored one by one; those of one
operation in any order (`copy_slice_impl` of vm-memory copies in units of several bytes, in an order that
is its own business), operations of one thread in program order, and threads interleaved arbitrarily.
-/

namespace LinuxLoader.Spec

/-- Memory contents after the bytes have been stored, in this order. -/
def applyWrites : Writes → (Nat → UInt8) → Nat → UInt8
  | [], f => f
  | (a, b) :: l, f => applyWrites l fun x => if x = a then b else f x

/-- The orders in which the bytes of the operations `ops`, one after the other, can be stored. -/
inductive Linear : List Writes → Writes → Prop
  | nil : Linear [] []
  | cons {w w' l : Writes} {ops : List Writes} : w'.Perm w → Linear ops l → Linear (w :: ops) (w' ++ l)

/-- The ways to interleave sequences. -/
inductive Interleave {α : Type} : List (List α) → List α → Prop
  | nil {ls : List (List α)} : (∀ l ∈ ls, l = []) → Interleave ls []
  | cons {pre post : List (List α)} {x : α} {l r : List α} :
      Interleave (pre ++ l :: post) r → Interleave (pre ++ (x :: l) :: post) (x :: r)

/-- An order for every thread. -/
inductive Linears : List (List Writes) → List Writes → Prop
  | nil : Linears [] []
  | cons {ops : List Writes} {l : Writes} {threads : List (List Writes)} {ls : List Writes} :
      Linear ops l → Linears threads ls → Linears (ops :: threads) (l :: ls)

/-- The orders in which the threads with these operations can store their bytes. -/
def Schedule (threads : List (List Writes)) (w : Writes) : Prop :=
  ∃ ls, Linears threads ls ∧ Interleave ls w

/-- One call with environment and record: whether it succeeds, and the state afterwards. The reader is
the call's own. -/
def BootStep.execT (env : Env) (t : TS Mem) : BootStep → Bool × TS Mem
  | .elf rd k h => let (r, s) := G.elfLoad (tracedIo env) k h ⟨⟨rd, t.st⟩, t.log⟩; (r.isOk, ⟨s.st.mem, s.log⟩)
  | .bz rd k h => let (r, s) := G.bzLoad (tracedIo env) k h ⟨⟨rd, t.st⟩, t.log⟩; (r.isOk, ⟨s.st.mem, s.log⟩)
  | .pe arch rd k h =>
    let (r, s) := G.peLoad (tracedIo env) arch k h ⟨⟨rd, t.st⟩, t.log⟩; (r.isOk, ⟨s.st.mem, s.log⟩)
  | .dtb rd a => let (r, s) := G.loadDtb (tracedIo env) a ⟨⟨rd, t.st⟩, t.log⟩; (r.isOk, ⟨s.st.mem, s.log⟩)
  | .cmdline a c => let (r, s) := G.loadCmdline (tracedOps env) a c t; (r.isOk, s)
  | .linux p => let (r, s) := G.linuxWrite (tracedOps env) p t; (r.isOk, s)
  | .fdt p => let (r, s) := G.fdtWrite (tracedOps env) p t; (r.isOk, s)
  | .pvh p => let (r, s) := G.pvhWrite (tracedOps env) p t; (r.isOk, s)
  | .own a bytes => let (r, s) := (tracedOps env).writeSlice bytes a () t; (r.isOk, s)

/-- `bootRun` with environment and record. -/
def bootRunT (env : Env) : List BootStep → TS Mem → List BootStep × Bool × TS Mem
  | [], t => ([], true, t)
  | st :: rest, t =>
    match st.execT env t with
    | (true, t') => let (done, ok, t'') := bootRunT env rest t'; (st :: done, ok, t'')
    | (false, t') => ([], false, t')

/-- A thread: its calls, and what it sees of the others. -/
structure Thread where
  steps : List BootStep
  env : Env

/-- The operations of the thread. -/
def Thread.ops (th : Thread) (m : Mem) : List Writes := (bootRunT th.env th.steps ⟨m, []⟩).2.2.log

/-- The calls the thread makes that succeed, and whether all do. -/
def Thread.outcome (th : Thread) (m : Mem) : List BootStep × Bool :=
  ((bootRunT th.env th.steps ⟨m, []⟩).1, (bootRunT th.env th.steps ⟨m, []⟩).2.1)

/-- The calls of different threads have no target address in common. -/
def ThreadsDisjoint (threads : List Thread) : Prop :=
  threads.Pairwise fun s t => ∀ a ∈ s.steps, ∀ b ∈ t.steps, a.Disjoint b

/-- Some call of some thread may write to `x`. -/
def Targeted (threads : List Thread) (x : Nat) : Prop := ∃ th ∈ threads, ∃ st ∈ th.steps, st.Targets x

/-- The threads one after the other, without an environment: memory at the end. -/
def oneByOne (threads : List Thread) (m : Mem) : Mem :=
  threads.foldl (fun m th => (bootRun th.steps m).2.2) m

end LinuxLoader.Spec
