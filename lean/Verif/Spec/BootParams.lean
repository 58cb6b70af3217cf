import Verif.Model.BootParams
import Verif.Spec.Memory

/-! # Specification vocabulary for boot parameter lists -/

namespace LinuxLoader.Spec

/-- A finished call: what was called and what it returned. -/
abbrev ParamCall := ParamOp × Res ListError GuestAddr

/-- Effect of one call on the list of pieces (address, bytes) a section list is made of: `set_sections`
starts over with one piece, a successful `add_section` adds the element at the returned address. -/
def sectionPiece (acc : List (Nat × List UInt8)) : ParamCall → List (Nat × List UInt8)
  | (.setSections es a, _) => [(a.toNat, es.flatten)]
  | (.addSection e _, .ok a) => acc ++ [(a.toNat, e)]
  | _ => acc

/-- The pieces of the section list after a history of calls. -/
def sectionPieces (h : List ParamCall) : List (Nat × List UInt8) := h.foldl sectionPiece []

/-- The same for modules. -/
def modulePiece (acc : List (Nat × List UInt8)) : ParamCall → List (Nat × List UInt8)
  | (.setModules es a, _) => [(a.toNat, es.flatten)]
  | (.addModule e _, .ok a) => acc ++ [(a.toNat, e)]
  | _ => acc

/-- The pieces of the module list after a history of calls. -/
def modulePieces (h : List ParamCall) : List (Nat × List UInt8) := h.foldl modulePiece []

/-- `bytes` is the memory image, from `start` on, of the pieces: it ends where the last of them ends,
and every byte is the one of the latest piece covering its address, or 0 if there is none. -/
structure SparseImage (start : Nat) (pieces : List (Nat × List UInt8)) (bytes : List UInt8) :
    Prop where
  covers : ∀ p ∈ pieces, start ≤ p.1 ∧ p.1 + p.2.length ≤ start + bytes.length
  tight : ∃ p ∈ pieces, p.1 + p.2.length = start + bytes.length
  content : ∀ k, k < bytes.length → bytes[k]? = some ((lastPiece pieces (start + k)).getD 0)

/-- Every Rust type has a size below `isize::MAX + 1`. -/
def RustSized : ParamOp → Prop
  | .addSection e _ => e.length < ISZ
  | .addModule e _ => e.length < ISZ
  | _ => True

/-- Byte `k` after the element `e` has been stored at offset `off` into the buffer `b`. -/
def overlayAt (b : List UInt8) (off : Nat) (e : List UInt8) (k : Nat) : Option UInt8 :=
  if off ≤ k ∧ k < off + e.length then e[k - off]?
  else if k < b.length then b[k]?
  else if k < off then some 0
  else none

/-- Boot parameters that the API can produce. -/
inductive ParamsReachable : BootParams → Prop
  | new (header : List UInt8) (addr : GuestAddr) : ParamsReachable (BootParams.new header addr)
  | step {p : BootParams} (op : ParamOp) (h : ParamsReachable p) (hs : RustSized op) :
      ParamsReachable (p.step op).2

/-- The start address in force for a call: that of the list, else the element's. -/
def startInForce (listStart addr : Option GuestAddr) : Option GuestAddr :=
  match listStart with
  | some s => some s
  | none => addr

/-- Outcome of adding an element of size `size` to a list of `len` bytes, given the list's start and
the requested address. -/
inductive AddOutcome (listStart addr : Option GuestAddr) (len size : Nat) :
    Res ListError GuestAddr → Prop
  | missing : listStart = none → addr = none →
      AddOutcome listStart addr len size (.err .missingStartAddress)
  | overflow (s : GuestAddr) : startInForce listStart addr = some s → U64 ≤ s.toNat + len →
      AddOutcome listStart addr len size (.err .overflow)
  | invalid (s a : GuestAddr) : startInForce listStart addr = some s → s.toNat + len < U64 →
      addr = some a → a.toNat < s.toNat →
      AddOutcome listStart addr len size (.err .invalidAddress)
  | tooBig (s : GuestAddr) : startInForce listStart addr = some s → s.toNat + len < U64 →
      (∀ a, addr = some a → s.toNat ≤ a.toNat ∧
        (ISZ ≤ a.toNat - s.toNat + size ∨ ISZ ≤ len)) →
      (addr = none → ISZ ≤ len + size) →
      AddOutcome listStart addr len size .panic
  | ok (s r : GuestAddr) : startInForce listStart addr = some s → s.toNat + len < U64 →
      (∀ a, addr = some a → r = a ∧ s.toNat ≤ a.toNat ∧ a.toNat - s.toNat + size < ISZ ∧ len < ISZ) →
      (addr = none → r.toNat = s.toNat + len ∧ len + size < ISZ) →
      AddOutcome listStart addr len size (.ok r)

end LinuxLoader.Spec
