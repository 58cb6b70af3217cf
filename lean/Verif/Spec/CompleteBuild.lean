import Verif.Spec.Cmdline
import Verif.Spec.BootParams
import Verif.Spec.Pvh

/-!
# Complete specifications of the command line builder and of boot parameter lists

For each call: what can prevent it, in the order in which it is reported, and what it changes if nothing does.
-/

namespace LinuxLoader.Spec
open Cmdline (Op)

/-- What can be wrong with a key. -/
def keyObstacles (k : Str) : List (CmdlineError × Prop) :=
  [(.invalidAscii, ¬ Printable k), (.hasSpace, ' ' ∈ k), (.hasEquals, '=' ∈ k)]

/-- What can be wrong with a value. -/
def valueObstacles (v : Str) : List (CmdlineError × Prop) :=
  [(.invalidAscii, ¬ Printable v), (.invalidQuote, InnerQuote v), (.noQuoteSpace, ' ' ∈ v ∧ ¬ Enclosed v)]

/-- A call on command line `c` that has returned `res` and left the command line `c'` has done what it should: it has
succeeded and made `c` into `new` if there is no obstacle; with an obstacle it has returned the error of the first one
and changed nothing. -/
structure ChangedRight (c : Cmdline) (obstacles : List (CmdlineError × Prop)) (new : Cmdline)
    (res : Res CmdlineError Unit) (c' : Cmdline) : Prop where
  succeeds : FirstObstacle obstacles none → res = .ok () ∧ c' = new
  fails : ∀ e, FirstObstacle obstacles (some e) → res = .err e ∧ c' = c

/-- One more boot argument that has to pass the obstacles given and has to fit. -/
def BootArgAdded (c : Cmdline) (obstacles : List (CmdlineError × Prop)) (arg : Str) :
    Res CmdlineError Unit → Cmdline → Prop :=
  ChangedRight c (obstacles ++ [(.tooLarge, ¬ Fits (extend c.bootArgs arg) c.initArgs c.capacity)])
    { c with bootArgs := extend c.bootArgs arg }

/-- A builder call has done what it should. -/
def OpDone (c : Cmdline) : Op → Res CmdlineError Unit → Cmdline → Prop
  | .insert k v, res, c' => BootArgAdded c (keyObstacles k ++ valueObstacles v) (k ++ '=' :: v) res c'
  | .insertMultiple k vs, res, c' =>
    BootArgAdded c (keyObstacles k ++ (.missingVal k, vs = []) :: vs.flatMap valueObstacles)
      (k ++ '=' :: joinCommas vs) res c'
  | .insertStr s, res, c' => ∃ t, Trimmed s t ∧ BootArgAdded c [(.invalidAscii, ¬ Printable t)] t res c'
  | .insertInitArgs s, res, c' => ∃ t, Trimmed s t ∧
      ChangedRight c [(.invalidAscii, ¬ Printable t),
          (.tooLarge, (text c.bootArgs c.initArgs).utf8Len + (if c.initArgs = [] then 4 else 1) + t.utf8Len + 1 >
            c.capacity.toNat)]
        { c with initArgs := extend c.initArgs t } res c'
  | .addVirtio size base irq id, res, c' =>
    BootArgAdded c [(.mmioSize, size = 0)] ("virtio_mmio.device=".toList ++ deviceText size base irq id) res c'

/-- A sequence of builder calls, with what each of them has returned, has done what it should. -/
inductive RunDone : Cmdline → List Op → List (Res CmdlineError Unit) → Cmdline → Prop
  | nil {c} : RunDone c [] [] c
  | cons {c c₁ c' op ops r rs} : OpDone c op r c₁ → RunDone c₁ ops rs c' → RunDone c (op :: ops) (r :: rs) c'

/-- `Cmdline::new` has done what it should. -/
def NewDone (cap : UInt64) (res : Res CmdlineError Cmdline) : Prop :=
  (cap = 0 → res = .err .invalidCapacity) ∧ (cap ≠ 0 → res = .ok ⟨[], [], cap⟩)

/-- `Cmdline::try_from` has done what it should. -/
def ParseDone (s : Str) (cap : UInt64) (res : Res CmdlineError Cmdline) : Prop :=
  ∃ b i, SplitsInto s b i ∧ (cap = 0 ∨ ¬ Fits b i cap → res = .err .invalidCapacity) ∧
    (cap ≠ 0 → Fits b i cap → res = .ok ⟨b, i, cap⟩)

/-- `as_cstring` has done what it should. -/
def RenderDone (c : Cmdline) (res : Res CmdlineError (List UInt8)) : Prop :=
  let obstacles := [(CmdlineError.noBootArgsInserted, c.bootArgs = [] ∧ c.initArgs ≠ []),
    (.nullTerminator, '\x00' ∈ text c.bootArgs c.initArgs)]
  (FirstObstacle obstacles none → res = .ok (text c.bootArgs c.initArgs).utf8) ∧
  ∀ e, FirstObstacle obstacles (some e) → res = .err e

/-- An element `e` has been added to a list of bytes with a start address, or has not been added because of an error
or a panic: the outcome is the one described by `AddOutcome`; after success the start address is the one in force and
the element lies on top of the list at the returned address; otherwise bytes and start are as before. Either way there
is a list afterwards. -/
structure AddDone (list : Option (List UInt8)) (start : Option GuestAddr) (e : List UInt8) (a : Option GuestAddr)
    (res : Res ListError GuestAddr) (list' : Option (List UInt8)) (start' : Option GuestAddr) : Prop where
  outcome : AddOutcome start a (list.getD []).length e.length res
  succeeds : ∀ r, res = .ok r → ∃ s b, startInForce start a = some s ∧ start' = some s ∧ list' = some b ∧
    ∀ k, b[k]? = overlayAt (list.getD []) (r.toNat - s.toNat) e k
  fails : (∀ r, res ≠ .ok r) → list' = some (list.getD []) ∧ start' = start

/-- A call on boot parameters has done what it should. -/
def ParamDone (p : BootParams) : ParamOp → Res ListError GuestAddr → BootParams → Prop
  | .setSections es a, res, p' => res = .ok a ∧ p' = { p with sections := some es.flatten, sectionsStart := some a }
  | .setModules es a, res, p' => res = .ok a ∧ p' = { p with modules := some es.flatten, modulesStart := some a }
  | .addSection e a, res, p' => AddDone p.sections p.sectionsStart e a res p'.sections p'.sectionsStart ∧
      p'.header = p.header ∧ p'.headerStart = p.headerStart ∧ p'.modules = p.modules ∧ p'.modulesStart = p.modulesStart
  | .addModule e a, res, p' => AddDone p.modules p.modulesStart e a res p'.modules p'.modulesStart ∧
      p'.header = p.header ∧ p'.headerStart = p.headerStart ∧ p'.sections = p.sections ∧
      p'.sectionsStart = p.sectionsStart

/-- A sequence of calls on boot parameters, with what each of them has returned, has done what it should. -/
inductive ParamsDone : BootParams → List ParamOp → List (Res ListError GuestAddr) → BootParams → Prop
  | nil {p} : ParamsDone p [] [] p
  | cons {p p₁ p' op ops r rs} : ParamDone p op r p₁ → ParamsDone p₁ ops rs p' →
      ParamsDone p (op :: ops) (r :: rs) p'

end LinuxLoader.Spec
