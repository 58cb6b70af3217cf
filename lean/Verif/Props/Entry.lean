import Verif.Props.Elf
import Verif.Props.BzImage
import Verif.Props.Pe

/-!
# Where the guest starts to execute (C90)

`kernel_load` of an ELF image is its entry point, of a bzImage and a PE image the address of the first
byte. A VMM points the instruction pointer there (or 0x200 behind it for 64-bit bzImage entry).
-/

namespace LinuxLoader
open Spec

/-! ## ELF -/

/-- The last list element with a property. -/
theorem last_with {α : Type} {p : α → Prop} [DecidablePred p] :
    ∀ {l : List α}, (∃ a ∈ l, p a) → ∃ pre a post, l = pre ++ a :: post ∧ p a ∧ ∀ b ∈ post, ¬ p b
  | [], h => by obtain ⟨_, h, -⟩ := h; cases h
  | c :: l, h => by
    by_cases hl : ∃ a ∈ l, p a
    · obtain ⟨pre, a, post, e, h1, h2⟩ := last_with hl
      exact ⟨c :: pre, a, post, by rw [e]; rfl, h1, h2⟩
    · obtain ⟨a, ha, hp⟩ := h
      rcases List.mem_cons.1 ha with rfl | ha
      · exact ⟨[], a, l, rfl, hp, fun b hb hpb => hl ⟨b, hb, hpb⟩⟩
      · exact absurd ⟨a, ha, hp⟩ hl

theorem lastPiece_at {pre post : List (Nat × List UInt8)} {a x : Nat} {bs : List UInt8} {b : UInt8}
    (hx : a ≤ x) (hb : bs[x - a]? = some b) (hpost : ∀ q ∈ post, ¬ InRange q.1 q.2.length x) :
    lastPiece (pre ++ (a, bs) :: post) x = some b := by
  induction pre with
  | nil =>
    simp only [List.nil_append, lastPiece]
    rw [lastPiece_outside hpost]
    simp only [if_pos hx, hb]
  | cons q pre ih =>
    obtain ⟨c, cs⟩ := q
    simp only [List.cons_append, lastPiece]
    rw [ih]

/-- **C90 (ELF).** Whatever the reader does: the address `k` bytes behind `kernel_load` holds a byte of
the image exactly if some loadable segment has file contents for that address. Then the address is mapped
and holds the byte of the image that the last such segment has for it; otherwise it holds what it held
before the load. -/
theorem C90_elf_entry {koff highmem : Option GuestAddr} {s s' : LS} {r : LoadResult}
    (hlen : s.rd.data.length < ISZ) (h : elfLoad koff highmem s = (.ok r, s')) (k : Nat) :
    ((∃ g ∈ elfLoadable s.rd.data, InRange g.paddr g.filesz (elfEntry s.rd.data + k)) →
      s.mem.mapped (r.kernelLoad + k) = true ∧
      ∃ pre g post, elfLoadable s.rd.data = pre ++ g :: post ∧
        InRange g.paddr g.filesz (elfEntry s.rd.data + k) ∧
        (∀ g' ∈ post, ¬ InRange g'.paddr g'.filesz (elfEntry s.rd.data + k)) ∧
        s.rd.data[g.offset + (elfEntry s.rd.data + k - g.paddr)]? =
          some (s'.mem.data (r.kernelLoad + k))) ∧
    ((¬ ∃ g ∈ elfLoadable s.rd.data, InRange g.paddr g.filesz (elfEntry s.rd.data + k)) →
      s'.mem.data (r.kernelLoad + k) = s.mem.data (r.kernelLoad + k)) := by
  have hk : r.kernelLoad = koffBase koff + elfEntry s.rd.data := (C37_elf_result_fields hlen h).1
  have hcomp := C35_elf_segments_complete hlen h
  refine ⟨fun he => ?_, fun he => ?_⟩
  · obtain ⟨pre, g, post, e, hg, hpost⟩ := last_with he
    have hmem : g ∈ elfLoadable s.rd.data := by rw [e]; simp
    obtain ⟨hl, hm⟩ := hcomp g hmem
    unfold InRange at hg
    refine ⟨hm _ (by unfold InRange; omega), pre, g, post, e, hg, hpost, ?_⟩
    have hi : elfEntry s.rd.data + k - g.paddr < (g.contents s.rd.data).length := by omega
    have hc : (g.contents s.rd.data)[elfEntry s.rd.data + k - g.paddr]? =
        s.rd.data[g.offset + (elfEntry s.rd.data + k - g.paddr)]? := by
      unfold Phdr.contents
      rw [List.getElem?_take_of_lt (by omega), List.getElem?_drop]
    rw [(C35_elf_segments_in_place hlen h).2, ← hc]
    have hp : elfPieces s.rd.data koff =
        pre.map (fun h => (koffBase koff + h.paddr, h.contents s.rd.data)) ++
        (koffBase koff + g.paddr, g.contents s.rd.data) ::
        post.map (fun h => (koffBase koff + h.paddr, h.contents s.rd.data)) := by
      unfold elfPieces; rw [e, List.map_append, List.map_cons]
    have hs := lastPiece_at (pre := pre.map (fun h => (koffBase koff + h.paddr, h.contents s.rd.data)))
      (post := post.map (fun h => (koffBase koff + h.paddr, h.contents s.rd.data)))
      (a := koffBase koff + g.paddr) (x := r.kernelLoad + k) (bs := g.contents s.rd.data)
      (b := (g.contents s.rd.data)[elfEntry s.rd.data + k - g.paddr]) (by omega)
      (by rw [show r.kernelLoad + k - (koffBase koff + g.paddr) = elfEntry s.rd.data + k - g.paddr by
            omega]
          exact List.getElem?_eq_getElem hi)
      (by
        intro q hq hr
        obtain ⟨g', hg', rfl⟩ := List.mem_map.1 hq
        have hl' := (hcomp g' (by rw [e]; simp [hg'])).1
        have := hpost g' hg'
        unfold InRange at hr this
        simp only at hr
        omega)
    rw [hp, hs, Option.getD_some]
    exact List.getElem?_eq_getElem hi
  · refine C35_elf_rest_unchanged hlen h _ ?_
    rintro ⟨g, hg, hr⟩
    refine he ⟨g, hg, ?_⟩
    unfold InRange at hr ⊢
    omega

/-- An image whose entry point is inside its (second, overlapping) segment. -/
def entryElf : List UInt8 :=
  mkEhdr 0x22 64 56 2 ++ mkPhdr 1 176 0x20 4 4 ++ mkPhdr 1 180 0x21 2 2 ++ [0xa1, 0xa2, 0xa3, 0xa4, 0xb1, 0xb2]

theorem entryElf_loads : (elfLoad (some 0x10) none ⟨⟨entryElf, 7, fun _ => .ok, 0⟩, elfMem⟩).1 =
    .ok ⟨0x32, 0x34, none, .ignored⟩ := by decide +kernel

/-- The first instruction byte comes from the second segment, the next from the first. -/
example := C90_elf_entry (s := ⟨⟨entryElf, 7, fun _ => .ok, 0⟩, elfMem⟩) (by decide +kernel)
  (ran entryElf_loads) 0
example : (∃ g ∈ elfLoadable entryElf, InRange g.paddr g.filesz (elfEntry entryElf + 0)) ∧
    (∃ g ∈ elfLoadable entryElf, InRange g.paddr g.filesz (elfEntry entryElf + 1)) ∧
    (¬ ∃ g ∈ elfLoadable entryElf, InRange g.paddr g.filesz (elfEntry entryElf + 2)) ∧
    [0, 1, 2].map (fun k => (elfLoad (some 0x10) none
      ⟨⟨entryElf, 7, fun _ => .ok, 0⟩, elfMem⟩).2.mem.data (0x32 + k)) = [0xb2, 0xa4, 0] := by decide +kernel

/-- **C90 (ELF; refutes that `kernel_load` lies in what was loaded, and that it is where the image starts).**
Accepted images whose entry point is in no segment: even at an unmapped address, above `kernel_end`, or
where the segments end. -/
theorem C90_elf_entry_refuted :
    (∃ (s : LS) (r : LoadResult), s.rd.data.length < ISZ ∧ (elfLoad none none s).1 = .ok r ∧
      s.mem.mapped r.kernelLoad = false) ∧
    (∃ (s : LS) (r : LoadResult), s.rd.data.length < ISZ ∧ (elfLoad none none s).1 = .ok r ∧
      s.mem.mapped r.kernelLoad = true ∧
      (elfLoad none none s).2.mem.data r.kernelLoad = s.mem.data r.kernelLoad ∧
      ¬ InSegments s.rd.data none r.kernelLoad) ∧
    (∃ (s : LS) (r : LoadResult) (x : Nat), s.rd.data.length < ISZ ∧ (elfLoad none none s).1 = .ok r ∧
      x < r.kernelLoad ∧ (elfLoad none none s).2.mem.data x ≠ s.mem.data x) := by
  refine ⟨⟨⟨⟨mkEhdr 0x5000 64 56 1 ++ mkPhdr 1 120 0x20 2 2 ++ [1, 2], 0, fun _ => .ok, 0⟩, elfMem⟩,
      ⟨0x5000, 0x22, none, .ignored⟩, ?_⟩,
    ⟨⟨⟨mkEhdr 0x22 64 56 1 ++ mkPhdr 1 120 0x20 2 2 ++ [1, 2], 0, fun _ => .ok, 0⟩, elfMem⟩,
      ⟨0x22, 0x22, none, .ignored⟩, ?_⟩,
    ⟨⟨⟨mkEhdr 0x21 64 56 1 ++ mkPhdr 1 120 0x20 2 2 ++ [1, 2], 0, fun _ => .ok, 0⟩, elfMem⟩,
      ⟨0x21, 0x22, none, .ignored⟩, 0x20, ?_⟩⟩
  · decide +kernel
  · unfold InSegments; decide +kernel
  · decide +kernel

/-- **C90 (PVH; refutes that a reported PVH entry point can be executed).** It is passed on unchecked. -/
theorem C90_pvh_entry_refuted :
    ∃ (s : LS) (r : LoadResult) (e : Nat), s.rd.data.length < ISZ ∧ (elfLoad none none s).1 = .ok r ∧
      r.pvh = .present e ∧ s.mem.mapped e = false :=
  ⟨demoState, _, _, demoElf_short, demoElf_loads, rfl, by decide +kernel⟩

/-! ## bzImage -/

/-- **C90 (bzImage).** Whatever the reader does: `k` bytes behind `kernel_load` is below `kernel_end`
exactly if the protected-mode kernel has a byte `k`; then the address is mapped and holds that byte,
otherwise it holds what it held before. -/
theorem C90_bz_entry {koff highmem : Option GuestAddr} {s s' : LS} {r : LoadResult}
    (h : bzLoad koff highmem s = (.ok r, s')) (k : Nat) :
    (r.kernelLoad + k < r.kernelEnd ↔ k < (bzKernel s.rd.data).length) ∧
    (k < (bzKernel s.rd.data).length → s.mem.mapped (r.kernelLoad + k) = true ∧
      (bzKernel s.rd.data)[k]? = some (s'.mem.data (r.kernelLoad + k))) ∧
    ((bzKernel s.rd.data).length ≤ k →
      s'.mem.data (r.kernelLoad + k) = s.mem.data (r.kernelLoad + k)) := by
  obtain ⟨⟨-, h2, h3⟩, hm, he, -⟩ := C47_bz_kernel_in_place h
  refine ⟨by omega, fun hk => ⟨hm _ (by unfold InRange; omega), ?_⟩,
    fun hk => h3 _ (by unfold InRange; omega)⟩
  rw [h2 k _ (List.getElem?_eq_getElem hk)]
  exact List.getElem?_eq_getElem hk

example := C90_bz_entry (ran demoBz_loads) 4

/-- **C90 (bzImage; refutes that the entry points are loaded).** Accepted: an image without any
protected-mode kernel, so that nothing is loaded; an image whose kernel ends before the 64-bit entry
point, 0x200 behind `kernel_load`. -/
theorem C90_bz_entry_refuted :
    (∃ (s : LS) (r : LoadResult), (bzLoad none none s).1 = .ok r ∧
      (bzLoad none none s).2.mem.data r.kernelLoad = s.mem.data r.kernelLoad ∧ r.kernelEnd = r.kernelLoad) ∧
    (∃ (s : LS) (r : LoadResult), (bzLoad none none s).1 = .ok r ∧ r.kernelLoad < r.kernelEnd ∧
      s.mem.mapped (r.kernelLoad + 0x200) = false) := by
  refine ⟨⟨⟨⟨demoBz.take 1024, 0, fun _ => .ok, 0⟩, elfMem⟩,
      ⟨0x40, 0x40, some (mkBzHdr 1 0x53726448 0x20f 1 0x40), .ignored⟩, ?_⟩,
    ⟨bzState, ⟨0x40, 0x45, some (mkBzHdr 1 0x53726448 0x20f 1 0x40), .ignored⟩, ?_⟩⟩ <;> decide +kernel

/-! ## PE -/

/-- **C90 (PE).** Whatever the reader does: `kernel_load` is mapped and holds the first byte of the image;
the two instruction words with which the image starts (`code0` and `code1`) are there. -/
theorem C90_pe_entry {arch : PeArch} {koff highmem : Option GuestAddr} {s s' : LS} {r : LoadResult}
    (h : peLoad arch koff highmem s = (.ok r, s')) (k : Nat) (hk : k < 8) :
    s.mem.mapped (r.kernelLoad + k) = true ∧ s.rd.data[k]? = some (s'.mem.data (r.kernelLoad + k)) := by
  obtain ⟨⟨-, h2, -⟩, hm, -⟩ := C51_pe_image_in_place h
  have hl : 64 ≤ s.rd.data.length := by
    obtain ⟨ho, -, -⟩ := peLoad_ok h
    have := firstObstacle_none_iff.1 ho _ (.head _)
    simp only at this
    omega
  refine ⟨hm _ (by unfold InRange; omega), ?_⟩
  have hk' : k < s.rd.data.length := by omega
  rw [h2 k _ (List.getElem?_eq_getElem hk')]
  exact List.getElem?_eq_getElem hk'

example := C90_pe_entry (ran demoPe_loads.1) 7 (by decide)

end LinuxLoader
