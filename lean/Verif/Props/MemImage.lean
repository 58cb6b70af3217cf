import Verif.Spec.MemImage
import Verif.Props.Elf

/-!
# The memory image of a program, uninitialised data included (C100)

Vocabulary: `Spec/MemImage.lean`.
-/

namespace LinuxLoader
open Spec

/-- The piece that alone covers an address determines the byte. -/
theorem lastPiece_unique {ps : List (Nat × List UInt8)} {p : Nat × List UInt8} {x : Nat} (hp : p ∈ ps)
    (hx : InRange p.1 p.2.length x) (hu : ∀ q ∈ ps, InRange q.1 q.2.length x → q = p) :
    lastPiece ps x = p.2[x - p.1]? := by
  induction ps with
  | nil => cases hp
  | cons q ps ih =>
    obtain ⟨a, bs⟩ := q
    rw [lastPiece]
    by_cases hm : p ∈ ps
    · rw [ih hm fun q hq => hu q (List.mem_cons_of_mem _ hq)]
      unfold InRange at hx
      rw [List.getElem?_eq_getElem (by omega)]
    · have : p = (a, bs) := by
        rcases List.mem_cons.1 hp with h | h
        · exact h
        · exact absurd h hm
      subst this
      rw [lastPiece_outside fun q hq hr => hm (hu q (List.mem_cons_of_mem _ hq) hr ▸ hq)]
      simp only [InRange] at hx
      simp only
      rw [if_pos hx.1]

theorem mem_elfLoadable {img : List UInt8} {h : Phdr} :
    h ∈ elfLoadable img ↔ h ∈ elfLoads img ∧ h.filesz ≠ 0 := by
  unfold elfLoadable elfLoads
  rw [List.mem_filter, List.mem_filter, decide_eq_true_iff, decide_eq_true_iff]
  exact ⟨fun h => ⟨⟨h.1, h.2.1⟩, h.2.2⟩, fun h => ⟨h.1.1, h.1.2, h.2⟩⟩

/-- Segments that share an address are the same. -/
theorem wellFormed_eq {img : List UInt8} (hw : WellFormedSegments img) {g h : Phdr} (hg : g ∈ elfLoads img)
    (hh : h ∈ elfLoads img) {x : Nat} (hx : InRange g.paddr g.memsz x) (hy : InRange h.paddr h.memsz x) :
    g = h := by
  obtain ⟨-, hp⟩ := hw
  generalize elfLoads img = l at hp hg hh
  induction l with
  | nil => cases hg
  | cons a l ih =>
    rw [List.pairwise_cons] at hp
    rcases List.mem_cons.1 hg with e | hg1 <;> rcases List.mem_cons.1 hh with e' | hh1
    · rw [e, e']
    · exact absurd ⟨hx, hy⟩ (e ▸ hp.1 h hh1 x)
    · exact absurd ⟨hy, hx⟩ (e' ▸ hp.1 g hg1 x)
    · exact ih hp.2 hg1 hh1

/-- **C100.** The contents of the file are in place, in the segment that the program header says. -/
theorem C100_contents {koff highmem : Option GuestAddr} {s s' : LS} {r : LoadResult}
    (hlen : s.rd.data.length < ISZ) (hok : elfLoad koff highmem s = (.ok r, s'))
    (hw : WellFormedSegments s.rd.data) :
    ∀ h ∈ elfLoads s.rd.data, ∀ k, k < h.filesz →
      s'.mem.data (koffBase koff + h.paddr + k) = segByte s.rd.data h k := by
  intro h hh k hk
  have hl : h ∈ elfLoadable s.rd.data := mem_elfLoadable.2 ⟨hh, by omega⟩
  obtain ⟨hc, -⟩ := C35_elf_segments_complete hlen hok h hl
  rw [(C35_elf_segments_in_place hlen hok).2, segByte, if_pos hk,
    lastPiece_unique (p := (koffBase koff + h.paddr, h.contents s.rd.data))]
  · simp only
    rw [show koffBase koff + h.paddr + k - (koffBase koff + h.paddr) = k by omega,
      List.getElem?_eq_getElem (by omega)]
    rfl
  · exact List.mem_map.2 ⟨h, hl, rfl⟩
  · unfold InRange; simp only; omega
  · intro q hq hr
    obtain ⟨g, hg, rfl⟩ := List.mem_map.1 hq
    obtain ⟨hcg, -⟩ := C35_elf_segments_complete hlen hok g hg
    have hg' := (mem_elfLoadable.1 hg).1
    have h1 := hw.1 g hg'
    have h2 := hw.1 h hh
    unfold InRange at hr
    simp only [hcg] at hr
    rw [wellFormed_eq hw (x := h.paddr + k) hg' hh (by unfold InRange; omega) (by unfold InRange; omega)]

/-- **C100.** Uninitialised data is not touched: it is what was there before. -/
theorem C100_uninitialised_kept {koff highmem : Option GuestAddr} {s s' : LS} {r : LoadResult}
    (hlen : s.rd.data.length < ISZ) (hok : elfLoad koff highmem s = (.ok r, s'))
    (hw : WellFormedSegments s.rd.data) :
    ∀ h ∈ elfLoads s.rd.data, ∀ k, h.filesz ≤ k → k < h.memsz →
      s'.mem.data (koffBase koff + h.paddr + k) = s.mem.data (koffBase koff + h.paddr + k) := by
  intro h hh k hk hk'
  refine C35_elf_rest_unchanged hlen hok _ ?_
  rintro ⟨g, hg, hr⟩
  have hg' := (mem_elfLoadable.1 hg).1
  have h1 := hw.1 g hg'
  unfold InRange at hr
  have := wellFormed_eq hw (x := h.paddr + k) hg' hh (by unfold InRange; omega) (by unfold InRange; omega)
  subst this
  omega

/-- **C100.** After a successful load of a file with well-formed segments the program's memory image is in place
if and only if the memory for its uninitialised data was 0 before. -/
theorem C100_in_place_iff {koff highmem : Option GuestAddr} {s s' : LS} {r : LoadResult}
    (hlen : s.rd.data.length < ISZ) (hok : elfLoad koff highmem s = (.ok r, s'))
    (hw : WellFormedSegments s.rd.data) :
    ProgramInPlace s'.mem.data (koffBase koff) s.rd.data ↔
      UninitialisedZero s.mem.data (koffBase koff) s.rd.data := by
  constructor
  · intro H h hh k hk hk'
    rw [← C100_uninitialised_kept hlen hok hw h hh k hk hk', H h hh k hk', segByte, if_neg (by omega)]
  · intro H h hh k hk
    by_cases hf : k < h.filesz
    · exact C100_contents hlen hok hw h hh k hf
    · rw [C100_uninitialised_kept hlen hok hw h hh k (by omega) hk, H h hh k (by omega) hk, segByte, if_neg hf]

/-- **C100.** In fresh memory the program's memory image is in place. -/
theorem C100_fresh {koff highmem : Option GuestAddr} {s s' : LS} {r : LoadResult}
    (hlen : s.rd.data.length < ISZ) (hok : elfLoad koff highmem s = (.ok r, s'))
    (hw : WellFormedSegments s.rd.data) (hz : ∀ x, s.mem.data x = 0) :
    ProgramInPlace s'.mem.data (koffBase koff) s.rd.data :=
  (C100_in_place_iff hlen hok hw).2 fun _ _ _ _ _ => hz _

/-! ## Concrete images -/

theorem demoElf_wellFormed : WellFormedSegments demoElf := by
  have e : (elfLoads demoElf).map (fun h => (h.paddr, h.filesz, h.memsz)) =
      [(0x20, 4, 8), (0x40, 3, 3), (0x60, 0, 16)] := by decide +kernel
  constructor
  · intro h hh
    have : (h.paddr, h.filesz, h.memsz) ∈ [(0x20, 4, 8), (0x40, 3, 3), (0x60, 0, 16)] :=
      e ▸ List.mem_map.2 ⟨h, hh, rfl⟩
    simp only [List.mem_cons, Prod.mk.injEq, List.not_mem_nil, or_false] at this
    omega
  · have : ((elfLoads demoElf).map (fun h => (h.paddr, h.filesz, h.memsz))).Pairwise
        fun g h => ∀ x, ¬ (InRange g.1 g.2.2 x ∧ InRange h.1 h.2.2 x) := by
      rw [e]
      simp only [List.pairwise_cons, List.mem_cons, List.not_mem_nil, or_false, forall_eq_or_imp, forall_eq,
        false_implies, implies_true, List.Pairwise.nil, and_true, InRange]
      refine ⟨⟨fun x => ?_, fun x => ?_⟩, fun x => ?_⟩ <;> omega
    exact (List.pairwise_map.1 this)

example := C100_contents demoElf_short (ran demoElf_loads_offset) demoElf_wellFormed
example := C100_uninitialised_kept demoElf_short (ran demoElf_loads_offset) demoElf_wellFormed
example := C100_in_place_iff demoElf_short (ran demoElf_loads_offset) demoElf_wellFormed
example := C100_fresh demoElf_short (ran demoElf_loads_offset) demoElf_wellFormed fun _ => rfl

/-- Guest memory with something in it. -/
def usedMem : Mem := ⟨[⟨0, 256⟩], fun _ => 0xee, true⟩

/-- **C100 (refuted).** A successful load puts the program's memory image in place. -/
theorem C100_in_place_refuted : ¬ ∀ (koff highmem : Option GuestAddr) (s s' : LS) (r : LoadResult),
    FaultFree s → WellFormedSegments s.rd.data → elfLoad koff highmem s = (.ok r, s') →
    ProgramInPlace s'.mem.data (koffBase koff) s.rd.data := by
  intro H
  have h1 : (elfLoad none none ⟨.cursor demoElf, usedMem⟩).1 = .ok ⟨0x10, 0x43, none, .present 0x1000000⟩ := by
    decide +kernel
  have h := H none none ⟨.cursor demoElf, usedMem⟩ _ _ (fun _ => rfl) demoElf_wellFormed (ran h1)
  have h2 : elfLoads demoElf = [⟨1, 288, 0x20, 4, 8⟩, ⟨1, 289, 0x40, 3, 3⟩, ⟨1, 0, 0x60, 0, 16⟩] := by decide +kernel
  have := h ⟨1, 288, 0x20, 4, 8⟩ (by rw [show (Reader.cursor demoElf).data = demoElf from rfl, h2]; exact .head _) 5
    (by decide)
  exact absurd this (by decide +kernel)

/-- A program with two bytes of contents and `memsz` bytes of memory. -/
def bigBss (memsz : Nat) : List UInt8 := mkEhdr 0x10 64 56 1 ++ mkPhdr 1 120 0x20 2 memsz ++ [0xa1, 0xa2]

/-- **C100 (refuted).** A successful load means that there is memory for all of the program. -/
theorem C100_mapped_refuted : ¬ ∀ (koff highmem : Option GuestAddr) (s s' : LS) (r : LoadResult),
    FaultFree s → WellFormedSegments s.rd.data → elfLoad koff highmem s = (.ok r, s') →
    ∀ h ∈ elfLoads s.rd.data, Mapped s.mem (koffBase koff + h.paddr) h.memsz := by
  intro H
  have h2 : elfLoads (bigBss 0x1000) = [⟨1, 120, 0x20, 2, 0x1000⟩] := by decide +kernel
  have h1 : (elfLoad none none ⟨.cursor (bigBss 0x1000), elfMem⟩).1 = .ok ⟨0x10, 0x1020, none, .ignored⟩ := by
    decide +kernel
  have hw : WellFormedSegments (bigBss 0x1000) := by
    unfold WellFormedSegments
    rw [h2]
    refine ⟨by decide, ?_⟩
    simp
  have h := H none none ⟨.cursor (bigBss 0x1000), elfMem⟩ _ _ (fun _ => rfl) hw (ran h1)
    ⟨1, 120, 0x20, 2, 0x1000⟩
    (by rw [show (Reader.cursor (bigBss 0x1000)).data = bigBss 0x1000 from rfl, h2]; exact .head _) 0x1000
    ⟨by decide, by decide⟩
  exact absurd h (by decide +kernel)

end LinuxLoader
