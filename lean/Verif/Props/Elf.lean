import Verif.Lemmas.ElfNotes
import Verif.Lemmas.Ran

/-!
# Loading ELF kernels (C35–C45, C61, C62)

`s` is the state before the call: the image reader (contents `s.rd.data`, an arbitrary position and an
arbitrary schedule of I/O errors and short reads) and guest memory `s.mem`. Images are shorter than
`2^63` bytes (`ISZ`), as files and allocations are.
-/

namespace LinuxLoader
open Spec

/-! ## Concrete images -/

/-- A 64-byte ELF header. -/
def mkEhdr (entry phoff phentsize phnum : Nat) : List UInt8 :=
  [0x7f, 0x45, 0x4c, 0x46, 2, 1, 1, 0, 0, 0, 0, 0, 0, 0, 0, 0] ++ leBytes 2 2 ++ leBytes 2 62 ++
    leBytes 4 1 ++ leBytes 8 entry ++ leBytes 8 phoff ++ leBytes 8 0 ++ leBytes 4 0 ++ leBytes 2 64 ++
    leBytes 2 phentsize ++ leBytes 2 phnum ++ leBytes 2 0 ++ leBytes 2 0 ++ leBytes 2 0

/-- A 56-byte program header. -/
def mkPhdr (type offset paddr filesz memsz : Nat) : List UInt8 :=
  leBytes 4 type ++ leBytes 4 5 ++ leBytes 8 offset ++ leBytes 8 0 ++ leBytes 8 paddr ++
    leBytes 8 filesz ++ leBytes 8 memsz ++ leBytes 8 4096

/-- The notes of the demo image: some other note, then a PVH note with entry point 0x1000000. -/
def demoNotes : List Note :=
  [⟨1, [0x47, 0x4e, 0x55, 0], [1, 2, 3, 4, 5]⟩, ⟨18, [0x58, 0x65, 0x6e, 0], [0, 0, 0, 1]⟩]

/-- An image with two loadable segments (the second with bss), a pure-bss segment and notes. -/
def demoElf : List UInt8 :=
  mkEhdr 0x10 64 56 4 ++ mkPhdr 1 288 0x20 4 8 ++ mkPhdr 4 292 0 44 44 ++ mkPhdr 1 289 0x40 3 3 ++
    mkPhdr 1 0 0x60 0 16 ++ [0xa1, 0xa2, 0xa3, 0xa4] ++ demoNotes.flatMap Note.encode

/-- 256 bytes of guest memory at 0. -/
def elfMem : Mem := ⟨[⟨0, 256⟩], fun _ => 0, true⟩

theorem elfMem_wf : elfMem.WF := by
  constructor <;> simp [elfMem, U64]

/-- The demo image at some position of a faultless reader. -/
def demoState : LS := ⟨⟨demoElf, 7, fun _ => .ok, 0⟩, elfMem⟩

/-- Loading the demo image works. -/
theorem demoElf_loads : (elfLoad none none demoState).1 =
    .ok ⟨0x10, 0x43, none, .present 0x1000000⟩ := by decide +kernel

theorem demoElf_loads_offset : (elfLoad (some 0x30) (some 0x8) demoState).1 =
    .ok ⟨0x40, 0x73, none, .ignored⟩ := by decide +kernel

theorem demoElf_short : demoState.rd.data.length < ISZ := by decide +kernel

/-! ## C35 -/

/-- **C35.** After a successful load guest memory is the old memory overwritten, in program header
order, by the file contents of the loadable segments at their addresses (plus `kernel_offset`). -/
theorem C35_elf_segments_in_place {koff highmem : Option GuestAddr} {s s' : LS} {r : LoadResult}
    (hlen : s.rd.data.length < ISZ) (h : elfLoad koff highmem s = (.ok r, s')) :
    SameLayout s.mem s'.mem ∧
    ∀ x, s'.mem.data x = (lastPiece (elfPieces s.rd.data koff) x).getD (s.mem.data x) := by
  obtain ⟨-, -, hm⟩ := elfLoad_ok hlen h
  rw [hm]
  exact ⟨storeAll_layout _ _, storeAll_data _ _⟩

example := C35_elf_segments_in_place demoElf_short (ran demoElf_loads_offset)

theorem loadable_facts {koff highmem : Option GuestAddr} {m : Mem} {img : List UInt8}
    (ho : FirstObstacle (elfObstacles img koff highmem m) none) :
    ∀ h ∈ elfLoadable img, h.offset + h.filesz ≤ img.length ∧
      Mapped m (koffBase koff + h.paddr) h.filesz ∧
      koffBase koff + h.paddr + h.memsz < U64 := by
  intro h hh
  rw [firstObstacle_none_iff] at ho
  have hmem := List.mem_filter.1 hh
  have hl : h.Loadable := by simpa using hmem.2
  have hsub : ∀ o ∈ phdrObstacles img koff m h, ¬ o.2 := fun o hoo =>
    ho o (List.mem_append_right _ (List.mem_flatMap.2 ⟨h, hmem.1, hoo⟩))
  have h1 := hsub _ (.tail _ (.tail _ (.tail _ (.tail _ (.head _)))))
  have h2 := hsub _ (.tail _ (.tail _ (.tail _ (.tail _ (.tail _ (.head _))))))
  refine ⟨?_, ?_, ?_⟩
  · exact Nat.le_of_not_lt fun hn => h1 ⟨hl, .inl hn⟩
  · exact Classical.byContradiction fun hn => h1 ⟨hl, .inr hn⟩
  · exact Nat.lt_of_not_le fun hn => h2 ⟨hl, hn⟩

/-- **C35.** All of each loadable segment is in the file and its target range is mapped memory. -/
theorem C35_elf_segments_complete {koff highmem : Option GuestAddr} {s s' : LS} {r : LoadResult}
    (hlen : s.rd.data.length < ISZ) (h : elfLoad koff highmem s = (.ok r, s')) :
    ∀ h ∈ elfLoadable s.rd.data, (h.contents s.rd.data).length = h.filesz ∧
      Mapped s.mem (koffBase koff + h.paddr) h.filesz := by
  obtain ⟨ho, -, -⟩ := elfLoad_ok hlen h
  intro h hh
  obtain ⟨h1, h2, -⟩ := loadable_facts ho h hh
  refine ⟨?_, h2⟩
  unfold Phdr.contents
  rw [List.length_take, List.length_drop]
  omega

example := C35_elf_segments_complete demoElf_short (ran demoElf_loads_offset)

theorem lastPiece_outside {ps : List (Nat × List UInt8)} {x : Nat}
    (h : ∀ q ∈ ps, ¬ InRange q.1 q.2.length x) : lastPiece ps x = none := by
  induction ps with
  | nil => rfl
  | cons q ps ih =>
    obtain ⟨a, bs⟩ := q
    simp only [lastPiece]
    rw [ih fun q hq => h q (by simp [hq])]
    have := h (a, bs) (by simp)
    unfold InRange at this
    simp only at this ⊢
    by_cases hax : a ≤ x
    · rw [if_pos hax, List.getElem?_eq_none (by omega)]
    · rw [if_neg hax]

theorem elfPieces_range {img : List UInt8} {koff : Option GuestAddr} {x : Nat}
    (hx : ¬ InSegments img koff x) : ∀ q ∈ elfPieces img koff, ¬ InRange q.1 q.2.length x := by
  intro q hq hr
  simp only [elfPieces, List.mem_map] at hq
  obtain ⟨h, hh, rfl⟩ := hq
  refine hx ⟨h, hh, ?_⟩
  have : (h.contents img).length ≤ h.filesz := by
    unfold Phdr.contents; rw [List.length_take]; omega
  unfold InRange at hr ⊢
  simp only at hr
  omega

/-- **C35.** Nothing outside the target ranges (bss included) is touched. -/
theorem C35_elf_rest_unchanged {koff highmem : Option GuestAddr} {s s' : LS} {r : LoadResult}
    (hlen : s.rd.data.length < ISZ) (h : elfLoad koff highmem s = (.ok r, s')) (x : Nat)
    (hx : ¬ InSegments s.rd.data koff x) : s'.mem.data x = s.mem.data x := by
  rw [(C35_elf_segments_in_place hlen h).2 x, lastPiece_outside (elfPieces_range hx)]
  rfl

example := C35_elf_rest_unchanged demoElf_short (ran demoElf_loads) 0x24
  (by unfold InSegments; decide +kernel)

theorem lastPiece_holds {ps : List (Nat × List UInt8)}
    (hd : ps.Pairwise fun p q => ∀ x, ¬ (InRange p.1 p.2.length x ∧ InRange q.1 q.2.length x))
    (f : Nat → UInt8) : ∀ q ∈ ps, Holds (fun x => (lastPiece ps x).getD (f x)) q.1 q.2 := by
  induction ps with
  | nil => simp
  | cons p ps ih =>
    obtain ⟨a, bs⟩ := p
    rw [List.pairwise_cons] at hd
    intro q hq
    rw [List.mem_cons] at hq
    rcases hq with rfl | hq
    · intro i b hb
      have hi : i < bs.length := (List.getElem?_eq_some_iff.1 hb).1
      simp only [lastPiece]
      rw [lastPiece_outside (x := a + i)]
      · simp [hb]
      · intro q hq hr
        exact hd.1 q hq (a + i) ⟨by unfold InRange; simp only; omega, hr⟩
    · intro i b hb
      have hi := (List.getElem?_eq_some_iff.1 hb).1
      have := ih hd.2 q hq i b hb
      simp only [lastPiece] at this ⊢
      cases hl : lastPiece ps (q.1 + i) with
      | some c => rw [hl] at this; exact this
      | none =>
        rw [hl] at this
        simp only [Option.getD_none] at this
        have hno := hd.1 q hq (q.1 + i)
        simp only at hno ⊢
        split
        · rw [List.getElem?_eq_none]
          · exact this
          · refine Nat.le_of_not_lt fun hlt => ?_
            exact hno ⟨by unfold InRange; omega, by unfold InRange; omega⟩
        · exact this

/-- **C35.** If the target ranges do not overlap, every segment is in memory at its address. -/
theorem C35_elf_disjoint_segments {koff highmem : Option GuestAddr} {s s' : LS} {r : LoadResult}
    (hlen : s.rd.data.length < ISZ) (h : elfLoad koff highmem s = (.ok r, s'))
    (hd : (elfLoadable s.rd.data).Pairwise fun p q =>
      p.paddr + p.filesz ≤ q.paddr ∨ q.paddr + q.filesz ≤ p.paddr) :
    ∀ h ∈ elfLoadable s.rd.data,
      Holds s'.mem.data (koffBase koff + h.paddr) (h.contents s.rd.data) := by
  intro ph hph
  have hlast := (C35_elf_segments_in_place hlen h).2
  have : s'.mem.data = fun x => (lastPiece (elfPieces s.rd.data koff) x).getD (s.mem.data x) :=
    funext hlast
  rw [this]
  refine lastPiece_holds ?_ _ (koffBase koff + ph.paddr, ph.contents s.rd.data)
    (List.mem_map.2 ⟨ph, hph, rfl⟩)
  unfold elfPieces
  rw [List.pairwise_map]
  refine hd.imp fun {p q} hpq x hx => ?_
  have h1 : (p.contents s.rd.data).length ≤ p.filesz := by
    unfold Phdr.contents; rw [List.length_take]; omega
  have h2 : (q.contents s.rd.data).length ≤ q.filesz := by
    unfold Phdr.contents; rw [List.length_take]; omega
  unfold InRange at hx
  simp only at hx
  omega

example := C35_elf_disjoint_segments demoElf_short (ran demoElf_loads) (by decide +kernel)

/-- The demo image meets the hypotheses, with disjoint segments. -/
example : demoState.rd.data.length < ISZ ∧ (elfLoad none none demoState).1.isOk = true ∧
    (elfLoadable demoElf).length = 2 ∧
    (elfLoadable demoElf).Pairwise (fun p q =>
      p.paddr + p.filesz ≤ q.paddr ∨ q.paddr + q.filesz ≤ p.paddr) ∧
    ((List.range 8).map fun i => (elfLoad none none demoState).2.mem.data (0x20 + i)) =
      [0xa1, 0xa2, 0xa3, 0xa4, 0, 0, 0, 0] := by decide +kernel

/-! ## C36 -/

/-- **C36.** An image that loads has a valid header and complete program headers. -/
theorem C36_elf_accepts_only_valid {koff highmem : Option GuestAddr} {s s' : LS} {r : LoadResult}
    (hlen : s.rd.data.length < ISZ) (h : elfLoad koff highmem s = (.ok r, s')) :
    ElfHeaderOk s.rd.data ∧ PhdrsComplete s.rd.data := by
  obtain ⟨ho, -, -⟩ := elfLoad_ok hlen h
  rw [firstObstacle_none_iff] at ho
  have key : ∀ o ∈ elfHeaderObstacles s.rd.data koff highmem, ¬ o.2 :=
    fun o hh => ho o (List.mem_append_left _ hh)
  have k0 := key _ (.head _)
  have k1 := key _ (.tail _ (.head _))
  have k2 := key _ (.tail _ (.tail _ (.head _)))
  have k3 := key _ (.tail _ (.tail _ (.tail _ (.head _))))
  have k4 := key _ (.tail _ (.tail _ (.tail _ (.tail _ (.head _)))))
  have k5 := key _ (.tail _ (.tail _ (.tail _ (.tail _ (.tail _ (.tail _ (.tail _ (.head _))))))))
  exact ⟨⟨Nat.le_of_not_lt k0, Classical.not_not.1 k1, Classical.not_not.1 k2, Classical.not_not.1 k3,
    Nat.le_of_not_lt k4⟩, Classical.not_not.1 k5⟩

example := C36_elf_accepts_only_valid demoElf_short (ran demoElf_loads)

/-- **C36.** On a faultless reader the first violated header condition gives its error, and guest
memory is unchanged. -/
theorem C36_elf_header_errors {koff highmem : Option GuestAddr} {s : LS} {e : LoadError}
    (hlen : s.rd.data.length < ISZ) (hff : FaultFree s)
    (ho : FirstObstacle (elfHeaderObstacles s.rd.data koff highmem) (some e)) :
    (elfLoad koff highmem s).1 = .err e ∧ (elfLoad koff highmem s).2.mem = s.mem := by
  rw [faultFree_eq_clean hff]
  rcases elfLoad_clean s.rd.data koff highmem hlen s.rd.pos s.rd.clock s.mem with
    ⟨hn, -⟩ | ⟨e', s', he, hs, hq⟩
  · exact nomatch firstObstacle_unique hn (firstObstacle_append_some ho)
  · rw [he]
    have := firstObstacle_unique hs (firstObstacle_append_some ho)
    cases this
    exact ⟨rfl, hq ⟨_, ho⟩⟩

example := C36_elf_header_errors (koff := none) (highmem := none)
  (s := ⟨⟨List.replicate 64 0, 3, fun _ => .ok, 0⟩, elfMem⟩) (by decide) (fun _ => rfl)
  (.later (by decide) (.here (by decide)))

/-- A wrong magic number. -/
example : FirstObstacle (elfHeaderObstacles (List.replicate 64 0) none none)
    (some (.elf .invalidElfMagicNumber)) :=
  .later (by decide) (.here (by decide))

/-- A missing program header. -/
example : FirstObstacle (elfHeaderObstacles (mkEhdr 0x10 64 56 1) (some 3) (some 8))
    (some (.elf .readProgramHeader)) := by
  refine .later (by decide) (.later (by decide) (.later (by decide) (.later (by decide +kernel)
    (.later (by decide +kernel) (.later ?_ (.later (by decide +kernel) (.here ?_)))))))
  · rintro ⟨h, he, hh⟩
    cases he
    exact absurd hh (by decide +kernel)
  · intro hc
    exact absurd (hc 0 (by decide +kernel)) (by decide +kernel)

/-! ## C37, C38 -/

/-- **C37.** The fields of the result. -/
theorem C37_elf_result_fields {koff highmem : Option GuestAddr} {s s' : LS} {r : LoadResult}
    (hlen : s.rd.data.length < ISZ) (h : elfLoad koff highmem s = (.ok r, s')) :
    r.kernelLoad = koffBase koff + elfEntry s.rd.data ∧ r.kernelLoad < U64 ∧
    IsMaxOf r.kernelEnd (elfEnds s.rd.data koff) ∧ r.kernelEnd < U64 ∧ r.setupHeader = none := by
  obtain ⟨ho, hr, -⟩ := elfLoad_ok hlen h
  have hmax := isMaxOf_foldl (elfEnds s.rd.data koff)
  refine ⟨by rw [hr], ?_, by rw [hr]; exact hmax, ?_, by rw [hr]⟩
  · have := firstObstacle_none_iff.1 ho (.elf .overflow, U64 ≤ koffBase koff + elfEntry s.rd.data)
      (List.mem_append_left _ (.tail _ (.tail _ (.tail _ (.tail _ (.tail _ (.tail _ (.head _))))))))
    rw [hr]
    exact Nat.lt_of_not_le this
  · rw [hr]
    show (elfEnds s.rd.data koff).foldl max 0 < U64
    rcases hmax.2 with hm | ⟨-, hz⟩
    · simp only [elfEnds, List.mem_map] at hm
      obtain ⟨ph, hph, he⟩ := hm
      have := (loadable_facts ho ph hph).2.2
      unfold elfEnds
      rw [← he]; exact this
    · rw [hz]; decide

example := C37_elf_result_fields demoElf_short (ran demoElf_loads_offset)

/-- The demo image has two loadable segments that end at 0x28 and 0x43. -/
example : elfEnds demoElf none = [0x28, 0x43] ∧ elfEnds demoElf (some 0x30) = [0x58, 0x73] := by
  decide +kernel

/-- **C38.** If no loadable segment has more contents than memory size, everything the load changed
lies below `kernel_end`, and so does every loadable segment including its bss. (With
`p_memsz < p_filesz` this may fail, exactly as `C38_kernel_end_exact` says; segments with
`p_filesz = 0` are never counted, `C38_bss_end_refuted`.) -/
theorem C38_kernel_end_bounds {koff highmem : Option GuestAddr} {s s' : LS} {r : LoadResult}
    (hlen : s.rd.data.length < ISZ) (h : elfLoad koff highmem s = (.ok r, s'))
    (hsz : ∀ h ∈ elfLoadable s.rd.data, h.filesz ≤ h.memsz) :
    (∀ x, s'.mem.data x ≠ s.mem.data x → x < r.kernelEnd) ∧
    ∀ h ∈ elfLoadable s.rd.data, koffBase koff + h.paddr + h.memsz ≤ r.kernelEnd := by
  obtain ⟨-, -, hmax, -⟩ := C37_elf_result_fields hlen h
  have hend : ∀ h ∈ elfLoadable s.rd.data, koffBase koff + h.paddr + h.memsz ≤ r.kernelEnd :=
    fun ph hph => hmax.1 _ (List.mem_map.2 ⟨ph, hph, rfl⟩)
  refine ⟨fun x hx => ?_, hend⟩
  refine Nat.lt_of_not_le fun hlt => hx ?_
  refine C35_elf_rest_unchanged hlen h x ?_
  rintro ⟨ph, hph, hin⟩
  have := hend ph hph
  have := hsz ph hph
  unfold InRange at hin
  omega

example := C38_kernel_end_bounds demoElf_short (ran demoElf_loads) (by decide +kernel)

/-- **C38**, exactly: `kernel_end` is at or above the end of everything written if and only if every
segment's contents end at or below the memory end of some segment. -/
theorem C38_kernel_end_exact {koff highmem : Option GuestAddr} {s s' : LS} {r : LoadResult}
    (hlen : s.rd.data.length < ISZ) (h : elfLoad koff highmem s = (.ok r, s')) :
    (∀ h ∈ elfLoadable s.rd.data, koffBase koff + h.paddr + h.filesz ≤ r.kernelEnd) ↔
    ∀ h ∈ elfLoadable s.rd.data, ∃ g ∈ elfLoadable s.rd.data,
      h.paddr + h.filesz ≤ g.paddr + g.memsz := by
  obtain ⟨-, -, hmax, -⟩ := C37_elf_result_fields hlen h
  constructor
  · intro H ph hph
    rcases hmax.2 with hm | ⟨hn, -⟩
    · simp only [elfEnds, List.mem_map] at hm
      obtain ⟨g, hg, he⟩ := hm
      refine ⟨g, hg, ?_⟩
      have := H ph hph
      omega
    · rw [elfEnds, List.map_eq_nil_iff] at hn
      rw [hn] at hph
      cases hph
  · intro H ph hph
    obtain ⟨g, hg, hle⟩ := H ph hph
    have := hmax.1 _ (List.mem_map.2 ⟨g, hg, rfl⟩)
    omega

example := C38_kernel_end_exact demoElf_short (ran demoElf_loads)

/-- The demo image has no loadable segment with `p_memsz < p_filesz`. -/
example : ∀ h ∈ elfLoadable demoElf, h.filesz ≤ h.memsz := by decide +kernel

/-- An image with a segment whose memory size is smaller than its contents. -/
def shrunkElf : List UInt8 :=
  mkEhdr 0x10 64 56 1 ++ mkPhdr 1 120 0x20 4 0 ++ [0xa1, 0xa2, 0xa3, 0xa4]

/-- An image with a pure-bss segment. -/
def bssElf : List UInt8 := mkEhdr 0x10 64 56 1 ++ mkPhdr 1 120 0x20 0 16

/-- **C38 (refuted).** `kernel_end` does not bound what was written: here the load succeeds with
`kernel_end = 0x20` and has written bytes above it. -/
theorem C38_kernel_end_refuted : ∃ (s : LS) (r : LoadResult),
    (elfLoad none none s).1 = .ok r ∧ r.kernelEnd = 0x20 ∧
    (elfLoad none none s).2.mem.data 0x20 ≠ s.mem.data 0x20 :=
  ⟨⟨.cursor shrunkElf, elfMem⟩, ⟨0x10, 0x20, none, .ignored⟩, by decide +kernel⟩

/-- **C38 (refuted).** `kernel_end` does not cover pure-bss segments: the segment occupies
`[0x20, 0x30)` but `kernel_end` is 0. -/
theorem C38_bss_end_refuted : ∃ (s : LS) (r : LoadResult),
    (elfLoad none none s).1 = .ok r ∧ r.kernelEnd = 0 ∧
    (elfPhdrs s.rd.data).map (fun h => (h.type, h.paddr, h.memsz)) = [(1, 0x20, 16)] :=
  ⟨⟨.cursor bssElf, elfMem⟩, ⟨0x10, 0, none, .ignored⟩, by decide +kernel⟩

/-! ## C39 -/

/-- **C39.** A load with a high memory address succeeds only if the image's entry point is there. -/
theorem C39_elf_highmem {koff : Option GuestAddr} {hm : GuestAddr} {s s' : LS} {r : LoadResult}
    (hlen : s.rd.data.length < ISZ) (h : elfLoad koff (some hm) s = (.ok r, s')) :
    hm.toNat ≤ elfEntry s.rd.data := by
  obtain ⟨ho, -, -⟩ := elfLoad_ok hlen h
  have := firstObstacle_none_iff.1 ho (.elf .invalidEntryAddress,
      ∃ h, some hm = some h ∧ elfEntry s.rd.data < h.toNat)
      (List.mem_append_left _ (.tail _ (.tail _ (.tail _ (.tail _ (.tail _ (.head _)))))))
  exact Nat.le_of_not_lt fun hn => this ⟨hm, rfl, hn⟩

example := C39_elf_highmem demoElf_short (ran demoElf_loads_offset)

/-- **C39.** A valid header with an entry point below high memory is rejected, whatever
`kernel_offset` is, and guest memory is unchanged. -/
theorem C39_elf_highmem_error {koff : Option GuestAddr} {hm : GuestAddr} {s : LS}
    (hlen : s.rd.data.length < ISZ) (hff : FaultFree s) (hok : ElfHeaderOk s.rd.data)
    (he : elfEntry s.rd.data < hm.toNat) :
    (elfLoad koff (some hm) s).1 = .err (.elf .invalidEntryAddress) ∧
    (elfLoad koff (some hm) s).2.mem = s.mem := by
  refine C36_elf_header_errors hlen hff ?_
  exact .later (by have := hok.complete; omega) (.later (fun hh => hh hok.magic)
    (.later (fun hh => hh hok.littleEndian) (.later (fun hh => hh hok.phentsize)
    (.later (by have := hok.phoff; omega) (.here ⟨hm, rfl, he⟩)))))

example := C39_elf_highmem_error (koff := some 0x30) (hm := 0x11) demoElf_short (fun _ => rfl)
  ⟨by decide +kernel, by decide +kernel, by decide +kernel, by decide +kernel, by decide +kernel⟩
  (by decide +kernel)

/-- The demo image below high memory at 0x11: rejected although it would be loaded at 0x40. -/
example : ElfHeaderOk demoElf ∧ elfEntry demoElf < (0x11 : GuestAddr).toNat ∧
    (elfLoad (some 0x30) none demoState).1 = .ok ⟨0x40, 0x73, none, .ignored⟩ ∧
    (elfLoad (some 0x30) (some 0x11) demoState).1 = .err (.elf .invalidEntryAddress) :=
  ⟨⟨by decide +kernel, by decide +kernel, by decide +kernel, by decide +kernel, by decide +kernel⟩,
    by decide +kernel, by decide +kernel, by decide +kernel⟩

/-! ## C40 -/

/-- **C40.** No image, argument, memory or schedule of I/O faults makes the load panic (or run out of
fuel in the model of the note loop, i.e. loop forever). -/
theorem C40_elf_never_panics (koff highmem : Option GuestAddr) (s : LS)
    (hlen : s.rd.data.length < ISZ) :
    (∃ r, (elfLoad koff highmem s).1 = .ok r) ∨ ∃ e, (elfLoad koff highmem s).1 = .err e := by
  have := elfLoad_no_panic (koff := koff) (highmem := highmem) hlen
  cases h : (elfLoad koff highmem s).1 with
  | ok r => exact .inl ⟨r, rfl⟩
  | err e => exact .inr ⟨e, rfl⟩
  | panic => exact absurd h this

example := C40_elf_never_panics none none
  ⟨⟨demoElf, 7, fun i => if i = 5 then .fail 0 else .ok, 0⟩, elfMem⟩ demoElf_short

/-- A reader that fails at its fifth operation, in the middle of the demo image. -/
example : (elfLoad none none ⟨⟨demoElf, 7, fun i => if i = 5 then .fail 0 else .ok, 0⟩, elfMem⟩).1 =
    .err (.elf .readProgramHeader) := by decide +kernel

/-! ## C41, C42 -/

/-- **C41.** For a segment that consists of well-formed notes, the parser of `PT_NOTE` segments
returns the entry point of the first PVH note, `InvalidPvhNote` if its descriptor is too short, and
"not present" if there is none. -/
theorem C41_pvh_note_parser {s : LS} {ph : Phdr} {notes : List Note}
    (hlen : s.rd.data.length < ISZ) (hff : FaultFree s) (hfit : ∀ n ∈ notes, n.Fits)
    (hin : ph.offset + ph.filesz ≤ s.rd.data.length)
    (hseg : ph.contents s.rd.data = notes.flatMap Note.encode) :
    (parseNote ph s).1 = match notesOutcome notes with
      | .ok c => .ok c
      | .error e => .err (.elf e) := by
  rw [faultFree_eq_clean hff]
  obtain ⟨p', c', he⟩ := parseNote_clean s.rd.data ph s.rd.pos s.rd.clock s.mem hlen
  have hl : (ph.contents s.rd.data).length = ph.filesz := by
    unfold Phdr.contents; rw [List.length_take, List.length_drop]; omega
  rw [he, segmentOutcome_notes notes 0 (s.rd.data.drop (ph.offset + ph.filesz)) hfit]
  · unfold outcomeRes; cases notesOutcome notes <;> rfl
  · rw [← hseg]
    unfold Phdr.contents
    rw [Nat.add_zero, ← List.drop_drop, List.take_append_drop]
  · rw [← hseg, hl]; omega

/-- **C41.** If the last note segment of an image consists of well-formed notes, a load without
`kernel_offset` that succeeds (with any reader) reports what these notes say. -/
theorem C41_pvh_capability_of_notes {highmem : Option GuestAddr} {s s' : LS} {r : LoadResult}
    {ph : Phdr} {notes : List Note}
    (hlen : s.rd.data.length < ISZ) (h : elfLoad none highmem s = (.ok r, s'))
    (hlast : lastNote s.rd.data = some ph) (hfit : ∀ n ∈ notes, n.Fits)
    (hin : ph.offset + ph.filesz ≤ s.rd.data.length)
    (hseg : ph.contents s.rd.data = notes.flatMap Note.encode) :
    notesOutcome notes = .ok r.pvh := by
  obtain ⟨ho, hr, -⟩ := elfLoad_ok hlen h
  have hos : FirstObstacle ((elfPhdrs s.rd.data).flatMap (phdrObstacles s.rd.data none s.mem)) none :=
    firstObstacle_none_iff.2 fun o hh => firstObstacle_none_iff.1 ho o (List.mem_append_right _ hh)
  have hl : (ph.contents s.rd.data).length = ph.filesz := by
    unfold Phdr.contents; rw [List.length_take, List.length_drop]; omega
  have := capOf_last s.rd.data s.mem (elfPhdrs s.rd.data) .ignored hos
  unfold lastNote at hlast
  rw [hlast] at this
  simp only at this
  rw [segmentOutcome_notes notes 0 (s.rd.data.drop (ph.offset + ph.filesz)) hfit] at this
  · rw [this, hr]
  · rw [← hseg]
    unfold Phdr.contents
    rw [Nat.add_zero, ← List.drop_drop, List.take_append_drop]
  · rw [← hseg, hl]; omega

/-- **C41.** If any note segment consists of well-formed notes whose first PVH note has a too short
descriptor, a load without `kernel_offset` does not succeed, with any reader. -/
theorem C41_short_descriptor_rejected {highmem : Option GuestAddr} {s : LS} {ph : Phdr}
    {notes : List Note} {e : ElfError} (hlen : s.rd.data.length < ISZ) (hph : ph ∈ elfPhdrs s.rd.data)
    (hnote : ph.IsNote) (hfit : ∀ n ∈ notes, n.Fits)
    (hin : ph.offset + ph.filesz ≤ s.rd.data.length)
    (hseg : ph.contents s.rd.data = notes.flatMap Note.encode)
    (he : notesOutcome notes = .error e) : ∀ r, (elfLoad none highmem s).1 ≠ .ok r := by
  intro r hr
  rcases hx : elfLoad none highmem s with ⟨res, s'⟩
  rw [hx] at hr
  simp only at hr
  subst hr
  obtain ⟨ho, -, -⟩ := elfLoad_ok hlen hx
  have hl : (ph.contents s.rd.data).length = ph.filesz := by
    unfold Phdr.contents; rw [List.length_take, List.length_drop]; omega
  have hso : segmentOutcome s.rd.data ph.offset ph.filesz 0 = .error e := by
    rw [segmentOutcome_notes notes 0 (s.rd.data.drop (ph.offset + ph.filesz)) hfit]
    · exact he
    · rw [← hseg]
      unfold Phdr.contents
      rw [Nat.add_zero, ← List.drop_drop, List.take_append_drop]
    · rw [← hseg, hl]; omega
  rcases noteObstacles (img := s.rd.data) (m := s.mem) hnote with ⟨c, hc, -⟩ | ⟨e', -, hob⟩
  · rw [hso] at hc; cases hc
  · have : FirstObstacle (phdrObstacles s.rd.data none s.mem ph) none :=
      firstObstacle_none_iff.2 fun o hh => firstObstacle_none_iff.1 ho o
        (List.mem_append_right _ (List.mem_flatMap.2 ⟨ph, hph, hh⟩))
    exact nomatch firstObstacle_unique this hob

/-- A PVH note with a 3-byte descriptor. -/
def badNoteElf : List UInt8 :=
  mkEhdr 0x10 64 56 1 ++ mkPhdr 4 120 0 20 20 ++ Note.encode ⟨18, [0x58, 0x65, 0x6e, 0], [0, 0, 1]⟩

example : notesOutcome [⟨18, [0x58, 0x65, 0x6e, 0], [0, 0, 1]⟩] = .error .invalidPvhNote ∧
    (elfPhdrs badNoteElf) = [⟨4, 120, 0, 20, 20⟩] ∧
    (elfLoad none none ⟨.cursor badNoteElf, elfMem⟩).1 = .err (.elf .invalidPvhNote) :=
  ⟨rfl, by decide +kernel, by decide +kernel⟩

/-- The demo image meets the hypotheses. -/
theorem demoElf_notes : lastNote demoElf = some ⟨4, 292, 0, 44, 44⟩ ∧ (∀ n ∈ demoNotes, n.Fits) ∧
    (Phdr.mk 4 292 0 44 44).contents demoElf = demoNotes.flatMap Note.encode ∧
    292 + 44 ≤ demoElf.length ∧
    notesOutcome demoNotes = .ok (.present 0x1000000) := by
  refine ⟨by decide +kernel, ?_, by decide +kernel, by decide +kernel, by rfl⟩
  intro n hn
  simp only [demoNotes, List.mem_cons, List.not_mem_nil, or_false] at hn
  rcases hn with rfl | rfl <;> exact ⟨by decide, by decide, by decide⟩

example := C41_pvh_note_parser demoElf_short (fun _ => rfl) demoElf_notes.2.1 demoElf_notes.2.2.2.1
  demoElf_notes.2.2.1

example := C41_pvh_capability_of_notes demoElf_short (ran demoElf_loads) demoElf_notes.1
  demoElf_notes.2.1 demoElf_notes.2.2.2.1 demoElf_notes.2.2.1

example := C41_short_descriptor_rejected (highmem := none) (s := ⟨.cursor badNoteElf, elfMem⟩)
  (ph := ⟨4, 120, 0, 20, 20⟩) (notes := [⟨18, [0x58, 0x65, 0x6e, 0], [0, 0, 1]⟩])
  (by decide +kernel) (by decide +kernel) (by decide)
  (by simp only [List.mem_singleton]; rintro n rfl; exact ⟨by decide, by decide, by decide⟩)
  (by decide +kernel) (by decide +kernel) rfl

/-- **C42.** With `kernel_offset` the capability is always "ignored". -/
theorem C42_pvh_ignored_with_offset {k : GuestAddr} {highmem : Option GuestAddr} {s s' : LS}
    {r : LoadResult} (hlen : s.rd.data.length < ISZ)
    (h : elfLoad (some k) highmem s = (.ok r, s')) : r.pvh = .ignored := by
  obtain ⟨-, hr, -⟩ := elfLoad_ok hlen h
  rw [hr]
  exact capOf_koff _ _ _

example := C42_pvh_ignored_with_offset demoElf_short (ran demoElf_loads_offset)

/-- **C42.** Without `kernel_offset` the capability is what the last note segment says, and "ignored"
if there is no note segment. -/
theorem C42_pvh_of_last_note {highmem : Option GuestAddr} {s s' : LS}
    {r : LoadResult} (hlen : s.rd.data.length < ISZ)
    (h : elfLoad none highmem s = (.ok r, s')) :
    (lastNote s.rd.data = none → r.pvh = .ignored) ∧
    ∀ ph, lastNote s.rd.data = some ph →
      segmentOutcome s.rd.data ph.offset ph.filesz 0 = .ok r.pvh := by
  obtain ⟨ho, hr, -⟩ := elfLoad_ok hlen h
  have hos : FirstObstacle ((elfPhdrs s.rd.data).flatMap (phdrObstacles s.rd.data none s.mem)) none :=
    firstObstacle_none_iff.2 fun o hh => firstObstacle_none_iff.1 ho o (List.mem_append_right _ hh)
  have := capOf_last s.rd.data s.mem (elfPhdrs s.rd.data) .ignored hos
  refine ⟨fun hn => ?_, fun ph hph => ?_⟩
  · unfold lastNote at hn
    rw [hn] at this
    rw [hr]; exact this
  · unfold lastNote at hph
    rw [hph] at this
    rw [hr]; exact this

example := C42_pvh_of_last_note demoElf_short (ran demoElf_loads)

/-- An image with two note segments: the first has a PVH note, the second does not. -/
def twoNotesElf : List UInt8 :=
  mkEhdr 0x10 64 56 2 ++ mkPhdr 4 176 0 20 20 ++ mkPhdr 4 196 0 20 20 ++
    Note.encode ⟨18, [0x58, 0x65, 0x6e, 0], [0, 0, 0, 1]⟩ ++
    Note.encode ⟨1, [0x58, 0x65, 0x6e, 0], [0, 0, 0, 1]⟩

/-- **C42 (refuted).** "The PVH entry point is reported if any note segment has one" is false. -/
theorem C42_any_note_refuted : ∃ (s : LS) (r : LoadResult), FaultFree s ∧
    (elfLoad none none s).1 = .ok r ∧ r.pvh = .notPresent ∧
    ∃ ph ∈ elfPhdrs s.rd.data, ph.IsNote ∧ ph.contents s.rd.data =
      Note.encode ⟨18, [0x58, 0x65, 0x6e, 0], [0, 0, 0, 1]⟩ :=
  ⟨⟨.cursor twoNotesElf, elfMem⟩, ⟨0x10, 0, none, .notPresent⟩, fun _ => rfl, by decide +kernel, rfl,
    ⟨4, 176, 0, 20, 20⟩, by decide +kernel, by decide +kernel, by decide +kernel⟩

/-! ## C43 -/

theorem lastPiece_shift (ps : List (Nat × List UInt8)) (k a : Nat) :
    lastPiece (ps.map fun q => (k + q.1, q.2)) (k + a) = lastPiece ps a := by
  induction ps with
  | nil => rfl
  | cons q ps ih =>
    obtain ⟨b, bs⟩ := q
    simp only [List.map_cons, lastPiece, ih]
    cases lastPiece ps a with
    | some c => rfl
    | none =>
      simp only
      by_cases h : b ≤ a
      · rw [if_pos h, if_pos (by omega), show k + a - (k + b) = a - b by omega]
      · rw [if_neg h, if_neg (by omega)]

theorem elfPieces_shift (img : List UInt8) (k : GuestAddr) :
    elfPieces img (some k) = (elfPieces img none).map fun q => (k.toNat + q.1, q.2) := by
  unfold elfPieces
  rw [List.map_map]
  apply List.map_congr_left
  intro h _
  simp [koffBase]

theorem foldl_max_shift (l : List Nat) (k : Nat) (hne : l ≠ []) :
    (l.map (k + ·)).foldl max 0 = k + l.foldl max 0 := by
  have hm := isMaxOf_foldl l
  have hm' := isMaxOf_foldl (l.map (k + ·))
  rcases hm.2 with h | ⟨h, -⟩
  · rcases hm'.2 with h' | ⟨h', -⟩
    · have a := hm'.1 (k + l.foldl max 0) (List.mem_map.2 ⟨_, h, rfl⟩)
      obtain ⟨y, hy, hy'⟩ := List.mem_map.1 h'
      have b := hm.1 y hy
      omega
    · exact absurd (List.map_eq_nil_iff.1 h') hne
  · exact absurd h hne

/-- **C43.** If an image loads with `kernel_offset` `k` and (into some other memory) without it, then
the bytes at `k + a` after the first load are those at `a` after the second, if they were so before;
nothing below `k` is written; `kernel_load`, and `kernel_end` if any segment is loaded, are shifted
by `k`. -/
theorem C43_offset_is_a_shift {k : GuestAddr} {hm hm' : Option GuestAddr} {s s' t t' : LS}
    {r q : LoadResult} (hlen : s.rd.data.length < ISZ) (himg : t.rd.data = s.rd.data)
    (hs : elfLoad (some k) hm s = (.ok r, s')) (ht : elfLoad none hm' t = (.ok q, t')) :
    (∀ a, s.mem.data (k.toNat + a) = t.mem.data a → s'.mem.data (k.toNat + a) = t'.mem.data a) ∧
    (∀ x, x < k.toNat → s'.mem.data x = s.mem.data x) ∧
    r.kernelLoad = k.toNat + q.kernelLoad ∧
    (elfLoadable s.rd.data ≠ [] → r.kernelEnd = k.toNat + q.kernelEnd) ∧
    (elfLoadable s.rd.data = [] → r.kernelEnd = 0 ∧ q.kernelEnd = 0) := by
  have hlen' : t.rd.data.length < ISZ := by rw [himg]; exact hlen
  obtain ⟨-, hr, -⟩ := elfLoad_ok hlen hs
  obtain ⟨-, hq, -⟩ := elfLoad_ok hlen' ht
  rw [himg] at hq
  refine ⟨fun a ha => ?_, fun x hx => ?_, ?_, fun hne => ?_, fun he => ?_⟩
  · rw [(C35_elf_segments_in_place hlen hs).2, (C35_elf_segments_in_place hlen' ht).2, himg,
      elfPieces_shift, lastPiece_shift, ha]
  · refine C35_elf_rest_unchanged hlen hs x ?_
    rintro ⟨ph, -, hin⟩
    unfold InRange koffBase at hin
    simp only at hin
    omega
  · rw [hr, hq]; simp [koffBase]
  · rw [hr, hq]
    show (elfEnds s.rd.data (some k)).foldl max 0 = k.toNat + (elfEnds s.rd.data none).foldl max 0
    rw [← foldl_max_shift _ _ (by simpa [elfEnds] using hne)]
    congr 1
    unfold elfEnds
    rw [List.map_map]
    apply List.map_congr_left
    intro h _
    simp only [koffBase, Function.comp_apply]
    omega
  · rw [hr, hq]
    simp [elfEnds, he]

example := C43_offset_is_a_shift demoElf_short rfl (ran demoElf_loads_offset) (ran demoElf_loads)

/-- Both loads of the demo image succeed. -/
example : (elfLoad (some 0x30) (some 0x8) demoState).1.isOk = true ∧
    (elfLoad none none demoState).1.isOk = true ∧ elfLoadable demoElf ≠ [] := by decide +kernel

/-! ## C44, C45 -/

/-- **C44 (ELF).** Whatever happens — success, an error, an I/O fault at any point — bytes outside
the target ranges of the loadable segments are unchanged. -/
theorem C44_elf_frame (koff highmem : Option GuestAddr) (s : LS) (x : Nat)
    (hx : ¬ InSegments s.rd.data koff x) : (elfLoad koff highmem s).2.mem.data x = s.mem.data x := by
  rcases elfLoad_from koff highmem s x with h | ⟨q, hq, h1, h2⟩ | h
  · exact h
  · exact absurd ⟨h1, by have := (List.getElem?_eq_some_iff.1 h2).1; omega⟩ (elfPieces_range hx q hq)
  · exact absurd h.2 hx

example := C44_elf_frame none none ⟨⟨demoElf, 7, fun i => if i = 8 then .fail 2 else .ok, 0⟩, elfMem⟩ 0x24
  (by unfold InSegments; decide +kernel)

/-- **C44 (ELF).** Whatever happens, every byte of guest memory is the old one or the one that some
loadable segment has for this address; the regions are the same. (With `scatter` events, which need a
segment that spans several memory regions, a failing load may leave other bytes in its target ranges:
`C44_elf_scatter_refuted`.) -/
theorem C44_elf_bytes (koff highmem : Option GuestAddr) (s : LS) (hns : NoScatter s) :
    SameLayout s.mem (elfLoad koff highmem s).2.mem ∧
    ∀ x, (elfLoad koff highmem s).2.mem.data x = s.mem.data x ∨
      ∃ h ∈ elfLoadable s.rd.data, koffBase koff + h.paddr ≤ x ∧
        (h.contents s.rd.data)[x - (koffBase koff + h.paddr)]? =
          some ((elfLoad koff highmem s).2.mem.data x) := by
  refine ⟨(good_elfLoad koff highmem).layout s, fun x => ?_⟩
  rcases elfLoad_from koff highmem s x with h | ⟨q, hq, h1, h2⟩ | h
  · exact .inl h
  · simp only [elfPieces, List.mem_map] at hq
    obtain ⟨h, hh, rfl⟩ := hq
    exact .inr ⟨h, hh, h1, h2⟩
  · exact absurd hns h.1

example := C44_elf_bytes none none ⟨⟨demoElf, 7, fun i => if i = 8 then .fail 2 else .ok, 0⟩, elfMem⟩
  (fun i w h => by simp only at h; split at h <;> cases h)

/-- **C44 (ELF, refuted for scattering reads).** A short read in the middle of a segment that spans two
memory regions can leave bytes of the image at the wrong address (the load fails). -/
theorem C44_elf_scatter_refuted : ∃ (s : LS) (x : Nat) (e : LoadError), s.mem.WF ∧
    (elfLoad none none s).1 = .err e ∧ (elfLoad none none s).2.mem.data x ≠ s.mem.data x ∧
    ∀ h ∈ elfLoadable s.rd.data, ¬ (koffBase none + h.paddr ≤ x ∧
        (h.contents s.rd.data)[x - (koffBase none + h.paddr)]? =
          some ((elfLoad none none s).2.mem.data x)) :=
  ⟨⟨⟨demoElf, 7, fun i => if i = 8 then .scatter fun x => if x = 0x22 then some 0xa2 else none else .ok, 0⟩,
      ⟨[⟨0, 0x22⟩, ⟨0x22, 0x100⟩], fun _ => 0, true⟩⟩, 0x22, .elf .readKernelImage,
    ⟨by decide, by decide⟩, by decide +kernel, by decide +kernel, by decide +kernel⟩

/-- A failing load of the demo image that has written two bytes of the first segment. -/
example : NoScatter ⟨⟨demoElf, 7, fun i => if i = 8 then .fail 2 else .ok, 0⟩, elfMem⟩ :=
  fun i w h => by simp only at h; split at h <;> cases h

example : let r := elfLoad none none ⟨⟨demoElf, 7, fun i => if i = 8 then .fail 2 else .ok, 0⟩, elfMem⟩
    r.1 = .err (.elf .readKernelImage) ∧
    (List.range 4).map (fun i => r.2.mem.data (0x20 + i)) = [0xa1, 0xa2, 0, 0] := by decide +kernel

/-- **C45 (ELF).** The position of the reader before the call does not matter. -/
theorem C45_elf_position_irrelevant (koff highmem : Option GuestAddr) (s t : LS)
    (hd : t.rd.data = s.rd.data) (hs : t.rd.sched = s.rd.sched) (hc : t.rd.clock = s.rd.clock)
    (hm : t.mem = s.mem) :
    (elfLoad koff highmem t).1 = (elfLoad koff highmem s).1 ∧
    (elfLoad koff highmem t).2.mem = (elfLoad koff highmem s).2.mem := by
  rcases s with ⟨⟨d, p, sch, c⟩, m⟩
  rcases t with ⟨⟨d', p', sch', c'⟩, m'⟩
  simp only at hd hs hc hm
  subst hd hs hc hm
  exact elfLoad_pos _ _ _ _ _ _ _ _

example := C45_elf_position_irrelevant (some 0x30) none demoState
  ⟨⟨demoElf, 0x1000, fun _ => .ok, 0⟩, elfMem⟩ rfl rfl rfl rfl

/-! ## C61, C62 -/

/-- **C61.** `align_up` returns the least multiple of the alignment that is not below the address,
for every power of two, if that fits in 64 bits; otherwise it overflows (it panics in a build with
overflow checks). An alignment that is not a power of two gives `Align`. -/
theorem C61_align_up (addr align : Nat) (ha : addr < U64) :
    ((¬ ∃ k, align = 2 ^ k) → alignUp addr align = .err (.elf .align)) ∧
    ((∃ k, align = 2 ^ k) → ∃ v, align ∣ v ∧ addr ≤ v ∧ (∀ w, align ∣ w → addr ≤ w → v ≤ w) ∧
      (v < U64 → alignUp addr align = .ok v) ∧ (U64 ≤ v → alignUp addr align = .panic)) := by
  constructor
  · intro hn
    unfold alignUp
    have hb : isPow2 align = false := by
      cases h : isPow2 align with
      | false => rfl
      | true => exact absurd ((isPow2_iff _).1 h) hn
    rw [if_pos (by simp [hb])]
  · rintro ⟨k, rfl⟩
    have hpos : 0 < 2 ^ k := Nat.two_pow_pos k
    rw [alignUp_pow2]
    by_cases h0 : addr % 2 ^ k = 0
    · refine ⟨addr, Nat.dvd_of_mod_eq_zero h0, Nat.le_refl _, fun w _ h => h, ?_, fun h => by omega⟩
      intro _; rw [if_pos h0]
    · refine ⟨2 ^ k * (addr / 2 ^ k + 1), Nat.dvd_mul_right _ _, ?_, ?_, ?_, ?_⟩
      · exact Nat.le_of_lt (Nat.lt_mul_div_succ addr hpos)
      · rintro w ⟨q, rfl⟩ hw
        refine Nat.mul_le_mul_left _ ?_
        refine Nat.le_of_not_lt fun hq => ?_
        have h1 : q ≤ addr / 2 ^ k := by omega
        have h2 : 2 ^ k * q ≤ 2 ^ k * (addr / 2 ^ k) := Nat.mul_le_mul_left _ h1
        have h3 := Nat.div_add_mod addr (2 ^ k)
        omega
      · intro h; rw [if_neg h0, if_pos h]
      · intro h; rw [if_neg h0, if_neg (by omega)]

example := C61_align_up 5 4 (by decide)

/-- The comment "this can be at maximum `2^64 - 1`" at `align_up` is not true for all arguments. -/
theorem C61_align_up_overflow : alignUp 0xfffffffffffffffd 4 = .panic := by decide +kernel

/-- Roundings in both cases. -/
example : alignUp 5 4 = .ok 8 ∧ alignUp 8 4 = .ok 8 ∧ alignUp 5 6 = .err (.elf .align) := by
  decide +kernel

/-- **C62.** With a faultless reader the load succeeds exactly if there is no obstacle, and fails
exactly with the first one, in the documented order: header checks, then the program headers in
order. -/
theorem C62_elf_outcome_exact {koff highmem : Option GuestAddr} {s : LS}
    (hlen : s.rd.data.length < ISZ) (hff : FaultFree s) :
    ((∃ r, (elfLoad koff highmem s).1 = .ok r) ↔
      FirstObstacle (elfObstacles s.rd.data koff highmem s.mem) none) ∧
    ∀ e, (elfLoad koff highmem s).1 = .err e ↔
      FirstObstacle (elfObstacles s.rd.data koff highmem s.mem) (some e) := by
  have hs := faultFree_eq_clean hff
  rw [hs]
  rcases elfLoad_clean s.rd.data koff highmem hlen s.rd.pos s.rd.clock s.mem with
    ⟨hn, p', c', he⟩ | ⟨e, s', he, ho, -⟩
  · rw [he]
    refine ⟨⟨fun _ => hn, fun _ => ⟨_, rfl⟩⟩, fun e => ⟨fun h => by simp at h, fun h => ?_⟩⟩
    exact nomatch firstObstacle_unique hn h
  · rw [he]
    refine ⟨⟨fun ⟨r, h⟩ => by simp at h, fun h => nomatch firstObstacle_unique ho h⟩, fun e' => ⟨?_, ?_⟩⟩
    · intro h
      simp only [Res.err.injEq] at h
      rw [← h]; exact ho
    · intro h
      have := firstObstacle_unique ho h
      cases this
      rfl

example := C62_elf_outcome_exact (koff := none) (highmem := some 0x11) demoElf_short (fun _ => rfl)

end LinuxLoader
