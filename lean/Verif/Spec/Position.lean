import Verif.Spec.Elf

/-!
# Specification vocabulary for C109: where the reader stands after a call
-/

namespace LinuxLoader.Spec

/-- Afterwards the reader has the same data as before and stands at `p`. -/
def StandsAt (s s' : LS) (p : Nat) : Prop := s'.rd.data = s.rd.data ∧ s'.rd.pos = p

/-- The loader looks at what this program header describes: segments that are loaded always, notes only
when `kernel_offset` is not given. -/
def Visited (koff : Option GuestAddr) (h : Phdr) : Prop := h.Loadable ∨ (h.IsNote ∧ koff = none)

instance (koff : Option GuestAddr) (h : Phdr) : Decidable (Visited koff h) := by unfold Visited; infer_instance

/-- Where reading of the note segment `[off, off + size)` ends, having arrived at byte `r` of the segment:
directly behind the entry point of the first PVH note (header of 12 bytes, name of 4 bytes, entry point of
4 bytes), or where the first note that would begin behind the segment would be. -/
inductive NotesEnd (img : List UInt8) (off size : Nat) : Nat → Nat → Prop
  | over {r : Nat} : size ≤ r → NotesEnd img off size r (off + r)
  | found {r : Nat} : r < size → PvhAt img (off + r) → NotesEnd img off size r (off + r + 20)
  | next {r p : Nat} : r < size → ¬ PvhAt img (off + r) →
      NotesEnd img off size (r + 12 + up4 (leField img (off + r) 4) + up4 (leField img (off + r + 4) 4)) p →
      NotesEnd img off size r p

/-- Where the reader of an ELF image stands after it has been loaded: behind the last segment that was
loaded or searched for notes, behind the program headers if there was none. -/
def ElfEnd (img : List UInt8) (koff : Option GuestAddr) (p : Nat) : Prop :=
  match ((elfPhdrs img).filter fun h => decide (Visited koff h)).getLast? with
  | none => p = elfPhoff img + 56 * elfPhnum img
  | some g => if g.Loadable then p = g.offset + g.filesz else NotesEnd img g.offset g.filesz 0 p

end LinuxLoader.Spec
