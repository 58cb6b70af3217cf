import Verif.Spec.ElfKinds
import Verif.Props.Elf
import Verif.Lemmas.Images

/-!
# ELF files of every kind (C96)

Vocabulary: `Spec/ElfKinds.lean`.
-/

namespace LinuxLoader
open Spec

theorem gPieces_eq (l : List Phdr) (img : List UInt8) (koff : Option GuestAddr) :
    gPieces l img koff =
      (l.filter fun h => decide h.Loadable).map fun h => (koffBase koff + h.paddr, h.contents img) := by
  unfold gPieces
  have : (fun h : Phdr => h.type = 1 && h.filesz != 0) = fun h : Phdr => decide h.Loadable := by
    funext h
    by_cases h1 : h.type = 1 <;> by_cases h2 : h.filesz = 0 <;> simp [Phdr.Loadable, h1, h2]
  simp only [this]
  rfl

theorem gEnds_eq (l : List Phdr) (koff : Option GuestAddr) :
    gEnds l koff =
      (l.filter fun h => decide h.Loadable).map fun h => koffBase koff + h.paddr + h.memsz := by
  unfold gEnds
  have : (fun h : Phdr => h.type = 1 && h.filesz != 0) = fun h : Phdr => decide h.Loadable := by
    funext h
    by_cases h1 : h.type = 1 <;> by_cases h2 : h.filesz = 0 <;> simp [Phdr.Loadable, h1, h2]
  simp only [this]

/-- The header that the loader reads is that of a 64-bit little-endian file with entries of 56 bytes. -/
theorem gPhdr_c64 {img : List UInt8} (h : elfPhentsize img = 56) :
    gPhdr .c64 .lsb img = phdrAt img := by
  funext i
  have : gPhentsize .c64 .lsb img = 56 := h
  unfold gPhdr phdrAt
  simp only [this]
  rfl

theorem elfPhdrs_take {img : List UInt8} (hp : elfPhentsize img = 56)
    (hc : elfPhnum img ≤ gCount .c64 .lsb img) :
    elfPhdrs img = (gPhdrs .c64 .lsb img).take (elfPhnum img) := by
  unfold elfPhdrs gPhdrs
  rw [gPhdr_c64 hp, ← List.map_take, List.take_range, Nat.min_eq_left hc]

theorem elfPhdrs_all {img : List UInt8} (hp : elfPhentsize img = 56)
    (hn : gPhnum .c64 .lsb img ≠ 0xffff) : elfPhdrs img = gPhdrs .c64 .lsb img := by
  have hc : gCount .c64 .lsb img = elfPhnum img := by
    unfold gCount; rw [if_neg hn]; rfl
  rw [elfPhdrs_take hp (Nat.le_of_eq hc.symm), ← hc]
  exact List.take_of_length_le (by simp [gPhdrs])

/-- **C96.** A file in the other byte order is never loaded, and nothing happens to memory. -/
theorem C96_big_endian_rejected {c : ElfClass} {koff highmem : Option GuestAddr} {s : LS}
    (hi : IsElf c .msb s.rd.data) (h64 : 64 ≤ s.rd.data.length) (hlen : s.rd.data.length < ISZ)
    (hff : FaultFree s) :
    (elfLoad koff highmem s).1 = .err (.elf .bigEndianElfOnLittle) ∧
    (elfLoad koff highmem s).2.mem = s.mem := by
  refine C36_elf_header_errors hlen hff (.later (by omega) (.later (fun h => h hi.magic) (.here ?_)))
  rw [hi.order]; decide

/-- **C96.** A 64-bit file whose program header entries do not have 56 bytes is never loaded. -/
theorem C96_entry_size_rejected {koff highmem : Option GuestAddr} {s : LS}
    (hi : IsElf .c64 .lsb s.rd.data) (hp : gPhentsize .c64 .lsb s.rd.data ≠ 56)
    (hlen : s.rd.data.length < ISZ) (hff : FaultFree s) :
    (elfLoad koff highmem s).1 = .err (.elf .invalidProgramHeaderSize) ∧
    (elfLoad koff highmem s).2.mem = s.mem :=
  C36_elf_header_errors hlen hff (.later (Nat.not_lt.2 hi.complete) (.later (fun h => h hi.magic)
    (.later (fun h => h hi.order) (.here hp))))

/-- **C96.** If a 64-bit file with fewer than 65535 program headers is loaded, in whatever byte order,
then it is little-endian, its entries have 56 bytes, and memory, entry point and end are those that the
ELF specification gives for the file. -/
theorem C96_elf64_loaded {o : ElfOrder} {koff highmem : Option GuestAddr} {s s' : LS} {r : LoadResult}
    (hi : IsElf .c64 o s.rd.data) (hn : gPhnum .c64 o s.rd.data ≠ 0xffff)
    (hlen : s.rd.data.length < ISZ) (h : elfLoad koff highmem s = (.ok r, s')) :
    o = .lsb ∧ gPhentsize .c64 o s.rd.data = 56 ∧
    r.kernelLoad = koffBase koff + gEntry .c64 o s.rd.data ∧
    IsMaxOf r.kernelEnd (gEnds (gPhdrs .c64 o s.rd.data) koff) ∧
    SameLayout s.mem s'.mem ∧
    ∀ x, s'.mem.data x =
      (lastPiece (gPieces (gPhdrs .c64 o s.rd.data) s.rd.data koff) x).getD (s.mem.data x) := by
  have hok := (C36_elf_accepts_only_valid hlen h).1
  have ho : o = .lsb := by
    cases o with
    | lsb => rfl
    | msb => have := hi.order; rw [hok.littleEndian] at this; exact absurd this (by decide)
  subst ho
  have hph := elfPhdrs_all hok.phentsize hn
  have hf := C37_elf_result_fields hlen h
  have hm := C35_elf_segments_in_place hlen h
  refine ⟨rfl, hok.phentsize, hf.1, ?_, hm.1, ?_⟩
  · rw [gEnds_eq, ← hph]; exact hf.2.2.1
  · rw [gPieces_eq, ← hph]; exact hm.2

/-- **C96.** If a 64-bit file with extended numbering is loaded, only its first 65535 program headers
count. -/
theorem C96_extended_numbering {koff highmem : Option GuestAddr} {s s' : LS} {r : LoadResult}
    (hn : gPhnum .c64 .lsb s.rd.data = 0xffff)
    (hx : 0xffff ≤ gShInfo .c64 .lsb s.rd.data)
    (hlen : s.rd.data.length < ISZ) (h : elfLoad koff highmem s = (.ok r, s')) :
    r.kernelLoad = koffBase koff + gEntry .c64 .lsb s.rd.data ∧
    IsMaxOf r.kernelEnd (gEnds ((gPhdrs .c64 .lsb s.rd.data).take 0xffff) koff) ∧
    SameLayout s.mem s'.mem ∧
    ∀ x, s'.mem.data x =
      (lastPiece (gPieces ((gPhdrs .c64 .lsb s.rd.data).take 0xffff) s.rd.data koff) x).getD
        (s.mem.data x) := by
  have hok := (C36_elf_accepts_only_valid hlen h).1
  have hn' : elfPhnum s.rd.data = 0xffff := hn
  have hph : elfPhdrs s.rd.data = (gPhdrs .c64 .lsb s.rd.data).take 0xffff := by
    rw [elfPhdrs_take hok.phentsize (by unfold gCount; rw [if_pos hn]; omega), hn']
  have hf := C37_elf_result_fields hlen h
  have hm := C35_elf_segments_in_place hlen h
  refine ⟨hf.1, ?_, hm.1, ?_⟩
  · rw [gEnds_eq, ← hph]; exact hf.2.2.1
  · rw [gPieces_eq, ← hph]; exact hm.2

/-! ## 32-bit files -/

theorem leNat_append (a b : List UInt8) : leNat (a ++ b) = leNat a + 256 ^ a.length * leNat b := by
  induction a with
  | nil => simp [leNat]
  | cons x a ih =>
    show x.toNat + 256 * leNat (a ++ b) = x.toNat + 256 * leNat a + 256 ^ (a.length + 1) * leNat b
    rw [ih, Nat.mul_add, Nat.pow_succ, Nat.mul_comm (256 ^ a.length) 256, Nat.mul_assoc]
    omega

theorem leField_halves {img : List UInt8} {o m n : Nat} (h : o + m ≤ img.length) :
    leField img o (m + n) = leField img o m + 256 ^ m * leField img (o + m) n := by
  unfold leField
  rw [List.take_add, leNat_append, List.drop_drop, List.length_take, List.length_drop,
    Nat.min_eq_left (by omega)]

/-- **C96.** A 32-bit file with the program headers directly behind the header, as linkers write it, is
never loaded (its first program header, read as the end of a 64-bit header, says that program headers
have another size), and nothing happens to memory. -/
theorem C96_elf32_rejected {koff highmem : Option GuestAddr} {s : LS}
    (hi : IsElf .c32 .lsb s.rd.data) (hp : gPhoff .c32 .lsb s.rd.data = 52)
    (ht : (gPhdr .c32 .lsb s.rd.data 0).type < 0x380000 ∨ 0x390000 ≤ (gPhdr .c32 .lsb s.rd.data 0).type)
    (h64 : 64 ≤ s.rd.data.length) (hlen : s.rd.data.length < ISZ) (hff : FaultFree s) :
    (elfLoad koff highmem s).1 = .err (.elf .invalidProgramHeaderSize) ∧
    (elfLoad koff highmem s).2.mem = s.mem := by
  refine C36_elf_header_errors hlen hff (.later (Nat.not_lt.2 h64) (.later (fun h => h hi.magic)
    (.later (fun h => h hi.order) (.here ?_))))
  have e : (gPhdr .c32 .lsb s.rd.data 0).type = leField s.rd.data 52 4 := by
    show leField s.rd.data (gPhoff .c32 .lsb s.rd.data + gPhentsize .c32 .lsb s.rd.data * 0) 4 = _
    rw [hp]; rfl
  have hh := leField_halves (img := s.rd.data) (o := 52) (m := 2) (n := 2) (by omega)
  have h2 := leField_lt s.rd.data 52 2
  have hx : leField s.rd.data 52 4 = leField s.rd.data 52 2 + 65536 * leField s.rd.data 54 2 := hh
  have h2' : leField s.rd.data 52 2 < 65536 := h2
  rw [e] at ht
  show leField s.rd.data 54 2 ≠ 56
  omega

/-- A 32-bit file: 52 byte header with one program header at 64, and a section header table at 96. The
bytes between header and program header are no part of anything. -/
def elf32 (gap : List UInt8) (phoff : Nat) : List UInt8 :=
  [0x7f, 0x45, 0x4c, 0x46, 1, 1, 1, 0, 0, 0, 0, 0, 0, 0, 0, 0] ++ leBytes 2 2 ++ leBytes 2 3 ++
    leBytes 4 1 ++ leBytes 4 0x20 ++ leBytes 4 phoff ++ leBytes 4 97 ++ leBytes 4 0 ++ leBytes 2 52 ++
    leBytes 2 32 ++ leBytes 2 1 ++ leBytes 2 40 ++ leBytes 2 1 ++ leBytes 2 0 ++ gap ++
    (leBytes 4 1 ++ leBytes 4 (52 + gap.length + 32) ++ leBytes 4 0 ++ leBytes 4 0x20 ++ leBytes 4 1 ++
      leBytes 4 1 ++ leBytes 4 5 ++ leBytes 4 4) ++ [0xaa]

/-- A 32-bit file is loaded according to the ELF specification, if it is loaded. -/
def Elf32LoadedRight : Prop :=
  ∀ (koff highmem : Option GuestAddr) (s s' : LS) (r : LoadResult), IsElf .c32 .lsb s.rd.data →
    gPhnum .c32 .lsb s.rd.data ≠ 0xffff → s.rd.data.length < ISZ → FaultFree s →
    elfLoad koff highmem s = (.ok r, s') →
    ∀ x, s'.mem.data x =
      (lastPiece (gPieces (gPhdrs .c32 .lsb s.rd.data) s.rd.data koff) x).getD (s.mem.data x)

/-- **C96 (expected, refuted).** The class is not checked: a 32-bit file can be accepted as a 64-bit file
without any segment. Its segment is not loaded, although the result is Ok. -/
theorem C96_elf32_refuted : ¬ Elf32LoadedRight := by
  intro h
  have hr : (elfLoad none none (⟨.cursor (elf32 [0, 0, 56, 0, 0, 0, 0, 0, 0, 0, 0, 0] 64), elfMem⟩)).1 =
      .ok ⟨0x4000000020, 0, none, .ignored⟩ := by decide +kernel
  have := h none none _ _ _ ⟨by decide +kernel, by decide +kernel, by decide +kernel, by decide +kernel⟩
    (by decide +kernel) (by decide +kernel) (fun _ => rfl) (ran hr) 0x20
  exact absurd this (by decide +kernel)

/-! ## Extended numbering -/

/-- 64 byte header (`e_phoff` 128, `e_shoff` 64, `e_phnum` `PN_XNUM`) and section header 0, which says
that there are 65536 program headers. -/
def xnumHead : List UInt8 :=
  [0x7f, 0x45, 0x4c, 0x46, 2, 1, 1, 0, 0, 0, 0, 0, 0, 0, 0, 0] ++ leBytes 2 2 ++ leBytes 2 62 ++
    leBytes 4 1 ++ leBytes 8 0x20 ++ leBytes 8 128 ++ leBytes 8 64 ++ leBytes 4 0 ++ leBytes 2 64 ++
    leBytes 2 56 ++ leBytes 2 0xffff ++ leBytes 2 64 ++ leBytes 2 1 ++ leBytes 2 0 ++
    List.replicate 44 0 ++ leBytes 4 65536 ++ List.replicate 16 0

/-- `head`, `n` null program headers, one loadable segment of one byte for address 0x20. -/
def withNulls (head : List UInt8) (n : Nat) : List UInt8 :=
  head ++ List.replicate (56 * n) 0 ++ (mkPhdr 1 (head.length + 56 * n + 56) 0x20 1 1 ++ [0xaa])

theorem withNulls_head {head : List UInt8} {n o k : Nat} (h : o + k ≤ head.length) :
    leField (withNulls head n) o k = leField head o k := by
  have : (withNulls head n).take head.length = head := by
    unfold withNulls
    rw [List.append_assoc, List.take_append_of_le_length (Nat.le_refl _), List.take_length]
  rw [← leField_take (withNulls head n) h, this]

theorem withNulls_null {head : List UInt8} {n o k : Nat} (h : head.length ≤ o)
    (h' : o + k ≤ head.length + 56 * n) : leField (withNulls head n) o k = 0 := by
  have : ((withNulls head n).drop o).take k = List.replicate k 0 := by
    unfold withNulls
    rw [List.append_assoc, List.drop_append, List.drop_eq_nil_of_le h, List.nil_append,
      List.drop_append_of_le_length (by simp; omega), List.take_append_of_le_length (by simp; omega),
      List.drop_replicate, List.take_replicate, Nat.min_eq_left (by omega)]
  unfold leField
  rw [this]
  exact leNat_zeros [] k

theorem withNulls_last {head : List UInt8} {n o k : Nat} :
    leField (withNulls head n) (head.length + 56 * n + o) k =
      leField (mkPhdr 1 (head.length + 56 * n + 56) 0x20 1 1 ++ [0xaa]) o k := by
  unfold leField withNulls
  rw [← List.drop_drop, List.drop_left' (by simp)]

theorem withNulls_length (head : List UInt8) (n : Nat) :
    (withNulls head n).length = head.length + 56 * n + 57 := by
  simp [withNulls, mkPhdr]; omega

/-- The file with 65535 null program headers and one loadable segment. -/
def xnumElf : List UInt8 := withNulls xnumHead 65535

theorem xnumHead_length : xnumHead.length = 128 := by decide +kernel

theorem xnumElf_field {o k : Nat} (h : o + k ≤ 128) : leField xnumElf o k = leField xnumHead o k :=
  withNulls_head (by rw [xnumHead_length]; exact h)

theorem xnumElf_length : xnumElf.length = 3670145 := by
  unfold xnumElf; rw [withNulls_length, xnumHead_length]

theorem xnumElf_isElf : IsElf .c64 .lsb xnumElf := by
  have h : ∀ i, i < 128 → xnumElf[i]? = xnumHead[i]? := by
    intro i hi
    unfold xnumElf withNulls
    rw [List.append_assoc, List.getElem?_append_left (by rw [xnumHead_length]; exact hi)]
  refine ⟨by rw [xnumElf_length]; decide, ?_, ?_, ?_⟩
  · unfold xnumElf withNulls
    rw [List.append_assoc, List.take_append_of_le_length (by rw [xnumHead_length]; decide)]
    decide +kernel
  · rw [h 4 (by decide)]; decide +kernel
  · rw [h 5 (by decide)]; decide +kernel

theorem xnumElf_phentsize : elfPhentsize xnumElf = 56 := by
  unfold elfPhentsize; rw [xnumElf_field (by decide)]; decide +kernel
theorem xnumElf_phnum : elfPhnum xnumElf = 0xffff := by
  unfold elfPhnum; rw [xnumElf_field (by decide)]; decide +kernel
theorem xnumElf_phoff : elfPhoff xnumElf = 128 := by
  unfold elfPhoff; rw [xnumElf_field (by decide)]; decide +kernel
theorem xnumElf_entry : elfEntry xnumElf = 0x20 := by
  unfold elfEntry; rw [xnumElf_field (by decide)]; decide +kernel
theorem xnumElf_info : gShInfo .c64 .lsb xnumElf = 65536 := by
  show leField xnumElf (leField xnumElf 40 8 + 44) 4 = _
  rw [xnumElf_field (o := 40) (by decide)]
  have : leField xnumHead 40 8 = 64 := by decide +kernel
  rw [this, xnumElf_field (by decide)]
  decide +kernel

theorem xnumElf_count : gCount .c64 .lsb xnumElf = 65535 + 1 := by
  unfold gCount
  rw [if_pos (show gPhnum .c64 .lsb xnumElf = 0xffff from xnumElf_phnum), xnumElf_info]

theorem xnumElf_null {i : Nat} (hi : i < 65535) : phdrAt xnumElf i = ⟨0, 0, 0, 0, 0⟩ := by
  unfold phdrAt
  rw [xnumElf_phoff]
  have h : ∀ o k, o + k ≤ 56 → leField xnumElf (128 + 56 * i + o) k = 0 := fun o k ho =>
    withNulls_null (by rw [xnumHead_length]; omega) (by rw [xnumHead_length]; omega)
  have h0 : leField xnumElf (128 + 56 * i) 4 = 0 := h 0 4 (by decide)
  simp only [h0, h 8 8 (by decide), h 24 8 (by decide), h 32 8 (by decide), h 40 8 (by decide)]

theorem xnumElf_last : phdrAt xnumElf 65535 = ⟨1, 3670144, 0x20, 1, 1⟩ := by
  unfold phdrAt
  rw [xnumElf_phoff]
  have h : ∀ o k, leField xnumElf (128 + 56 * 65535 + o) k =
      leField (mkPhdr 1 3670144 0x20 1 1 ++ [0xaa]) o k := by
    intro o k
    have := withNulls_last (head := xnumHead) (n := 65535) (o := o) (k := k)
    rw [xnumHead_length] at this
    exact this
  have h0 : leField xnumElf (128 + 56 * 65535) 4 = _ := h 0 4
  simp only [h0, h 8 8, h 24 8, h 32 8, h 40 8]
  decide +kernel

theorem xnumElf_phdrs : elfPhdrs xnumElf = List.replicate 65535 ⟨0, 0, 0, 0, 0⟩ := by
  unfold elfPhdrs
  rw [xnumElf_phnum]
  refine List.eq_replicate_iff.2 ⟨by rw [List.length_map, List.length_range], fun p hp => ?_⟩
  obtain ⟨i, hi, rfl⟩ := List.mem_map.1 hp
  exact xnumElf_null (List.mem_range.1 hi)

theorem xnumElf_gPhdrs : gPhdrs .c64 .lsb xnumElf =
    List.replicate 65535 ⟨0, 0, 0, 0, 0⟩ ++ [⟨1, 3670144, 0x20, 1, 1⟩] := by
  unfold gPhdrs
  rw [xnumElf_count, gPhdr_c64 xnumElf_phentsize, List.range_succ, List.map_append, ← xnumElf_phdrs]
  unfold elfPhdrs
  rw [xnumElf_phnum, List.map_singleton, xnumElf_last]

theorem filter_nulls (p : Phdr → Bool) (hp : p ⟨0, 0, 0, 0, 0⟩ = false) (n : Nat) (l : List Phdr) :
    (List.replicate n (⟨0, 0, 0, 0, 0⟩ : Phdr) ++ l).filter p = l.filter p := by
  rw [List.filter_append, List.filter_replicate, hp]
  rfl

theorem mkPhdr_length (t o a f m : Nat) : (mkPhdr t o a f m).length = 56 := by simp [mkPhdr]

theorem xnumElf_pieces (koff : Option GuestAddr) :
    gPieces (gPhdrs .c64 .lsb xnumElf) xnumElf koff = [(koffBase koff + 0x20, [0xaa])] := by
  unfold gPieces
  rw [xnumElf_gPhdrs, filter_nulls _ rfl]
  show [(koffBase koff + 0x20, (xnumElf.drop 3670144).take 1)] = _
  have : xnumElf.drop 3670144 = [0xaa] := by
    unfold xnumElf withNulls
    rw [show 3670144 = (xnumHead.length + 56 * 65535) + 56 by rw [xnumHead_length], ← List.drop_drop,
      List.drop_left' (by rw [List.length_append, List.length_replicate]), List.drop_left' (mkPhdr_length ..)]
  rw [this]
  rfl

/-- The file is loaded. -/
theorem xnumElf_loads : ∃ r, (elfLoad none none ⟨.cursor xnumElf, elfMem⟩).1 = .ok r := by
  refine (C62_elf_outcome_exact (by show xnumElf.length < ISZ; rw [xnumElf_length]; decide)
    (fun _ => rfl)).1.2 (firstObstacle_none_iff.2 fun o ho => ?_)
  show ¬ o.2
  change o ∈ elfObstacles xnumElf none none elfMem at ho
  unfold elfObstacles at ho
  rcases List.mem_append.1 ho with ho | ho
  · simp only [elfHeaderObstacles, List.mem_cons, List.not_mem_nil, or_false] at ho
    rcases ho with rfl | rfl | rfl | rfl | rfl | rfl | rfl | rfl
    · show ¬ xnumElf.length < 64
      rw [xnumElf_length]; decide
    · exact fun h => h xnumElf_isElf.magic
    · exact fun h => h xnumElf_isElf.order
    · exact fun h => h xnumElf_phentsize
    · show ¬ elfPhoff xnumElf < 64
      rw [xnumElf_phoff]; decide
    · rintro ⟨h, h', _⟩; exact nomatch h'
    · show ¬ U64 ≤ 0 + elfEntry xnumElf
      rw [xnumElf_entry]; decide
    · refine fun h => h fun i hi => ?_
      rw [xnumElf_phnum] at hi
      rw [xnumElf_phoff, xnumElf_length]
      omega
  · obtain ⟨p, hp, ho⟩ := List.mem_flatMap.1 ho
    rw [xnumElf_phdrs] at hp
    rw [List.eq_of_mem_replicate hp] at ho
    simp only [phdrObstacles, List.mem_cons, List.not_mem_nil, or_false] at ho
    rcases ho with rfl | rfl | rfl | rfl | rfl | rfl
    · exact fun h => absurd h.1 (by decide)
    · exact fun h => absurd h.1 (by decide)
    · exact fun h => absurd h.1 (by decide)
    · exact fun h => absurd h.1 (by decide)
    · exact fun h => absurd h.1 (by decide)
    · exact fun h => absurd h.1 (by decide)

/-- Every 64-bit little-endian file is loaded according to the ELF specification, if it is loaded. -/
def Elf64LoadedRight : Prop :=
  ∀ (koff highmem : Option GuestAddr) (s s' : LS) (r : LoadResult), IsElf .c64 .lsb s.rd.data →
    s.rd.data.length < ISZ → FaultFree s → elfLoad koff highmem s = (.ok r, s') →
    ∀ x, s'.mem.data x =
      (lastPiece (gPieces (gPhdrs .c64 .lsb s.rd.data) s.rd.data koff) x).getD (s.mem.data x)

/-- **C96 (expected, refuted).** Extended numbering is not understood: of a file with 65536 program
headers, the last of them a loadable segment, nothing is loaded, although the result is Ok. -/
theorem C96_extended_numbering_refuted : ¬ Elf64LoadedRight := by
  intro hall
  obtain ⟨r, hr⟩ := xnumElf_loads
  have hlen : xnumElf.length < ISZ := by rw [xnumElf_length]; decide
  have hx := hall none none _ _ r xnumElf_isElf hlen (fun _ => rfl) (ran hr) 0x20
  have hm := (C96_extended_numbering (s := ⟨.cursor xnumElf, elfMem⟩) xnumElf_phnum
    (by show 0xffff ≤ gShInfo .c64 .lsb xnumElf; rw [xnumElf_info]; decide) hlen (ran hr)).2.2.2 0x20
  rw [hm] at hx
  change (lastPiece (gPieces ((gPhdrs .c64 .lsb xnumElf).take 0xffff) xnumElf none) 0x20).getD 0 =
    (lastPiece (gPieces (gPhdrs .c64 .lsb xnumElf) xnumElf none) 0x20).getD 0 at hx
  rw [xnumElf_pieces, xnumElf_gPhdrs, List.take_append_of_le_length (by rw [List.length_replicate]; exact Nat.le_refl _),
    List.take_of_length_le (by rw [List.length_replicate]; exact Nat.le_refl _)] at hx
  unfold gPieces at hx
  rw [← List.append_nil (List.replicate 65535 _), filter_nulls _ rfl] at hx
  exact absurd hx (by decide)

/-! ## Concrete cases -/

example := C96_big_endian_rejected (c := .c64) (koff := none) (highmem := none)
  (s := ⟨.cursor (demoElf.set 5 2), elfMem⟩)
  ⟨by decide +kernel, by decide +kernel, by decide +kernel, by decide +kernel⟩ (by decide +kernel)
  (by decide +kernel) (fun _ => rfl)

example := C96_entry_size_rejected (koff := none) (highmem := none)
  (s := ⟨.cursor (demoElf.set 54 64), elfMem⟩)
  ⟨by decide +kernel, by decide +kernel, by decide +kernel, by decide +kernel⟩ (by decide +kernel)
  (by decide +kernel) (fun _ => rfl)

example := C96_elf64_loaded (o := .lsb)
  ⟨by decide +kernel, by decide +kernel, by decide +kernel, by decide +kernel⟩ (by decide +kernel)
  demoElf_short (ran demoElf_loads)

example : (gPhdrs .c64 .lsb demoElf).length = 4 ∧
    gPieces (gPhdrs .c64 .lsb demoElf) demoElf none =
      [(0x20, [0xa1, 0xa2, 0xa3, 0xa4]), (0x40, [0xa2, 0xa3, 0xa4])] := by decide +kernel

/-- A 32-bit file as linkers write it. -/
example := C96_elf32_rejected (koff := none) (highmem := none) (s := ⟨.cursor (elf32 [] 52), elfMem⟩)
  ⟨by decide +kernel, by decide +kernel, by decide +kernel, by decide +kernel⟩ (by decide +kernel)
  (by decide +kernel) (by decide +kernel) (by decide +kernel) (fun _ => rfl)

example : gPieces (gPhdrs .c32 .lsb (elf32 [] 52)) (elf32 [] 52) none = [(0x20, [0xaa])] ∧
    gPieces (gPhdrs .c32 .lsb (elf32 [0, 0, 56, 0, 0, 0, 0, 0, 0, 0, 0, 0] 64))
      (elf32 [0, 0, 56, 0, 0, 0, 0, 0, 0, 0, 0, 0] 64) none = [(0x20, [0xaa])] := by decide +kernel

/-- Extended numbering: the file with 65536 program headers. -/
example (r : LoadResult) (hr : (elfLoad none none ⟨.cursor xnumElf, elfMem⟩).1 = .ok r) :=
  C96_extended_numbering (s := ⟨.cursor xnumElf, elfMem⟩) xnumElf_phnum
    (by show 0xffff ≤ gShInfo .c64 .lsb xnumElf; rw [xnumElf_info]; decide)
    (by show xnumElf.length < ISZ; rw [xnumElf_length]; decide) (ran hr)

/-! ## The fields are where the ELF specification puts them -/

/-- Consecutive bytes, but for `e_phoff` and `e_phentsize`: class 32, little-endian. -/
def bytes_c32_lsb : List UInt8 :=
  (List.range 200).map (fun i => UInt8.ofNat (([(28, 60), (29, 0), (30, 0), (31, 0), (42, 33), (43, 0)].lookup i).getD i))

/-- Consecutive bytes, but for `e_phoff` and `e_phentsize`: class 32, big-endian. -/
def bytes_c32_msb : List UInt8 :=
  (List.range 200).map (fun i => UInt8.ofNat (([(28, 0), (29, 0), (30, 0), (31, 60), (42, 0), (43, 33)].lookup i).getD i))

/-- Consecutive bytes, but for `e_phoff` and `e_phentsize`: class 64, little-endian. -/
def bytes_c64_lsb : List UInt8 :=
  (List.range 200).map (fun i => UInt8.ofNat (([(32, 61), (33, 0), (34, 0), (35, 0), (36, 0), (37, 0), (38, 0), (39, 0), (54, 57), (55, 0)].lookup i).getD i))

/-- Consecutive bytes, but for `e_phoff` and `e_phentsize`: class 64, big-endian. -/
def bytes_c64_msb : List UInt8 :=
  (List.range 200).map (fun i => UInt8.ofNat (([(32, 0), (33, 0), (34, 0), (35, 0), (36, 0), (37, 0), (38, 0), (39, 61), (54, 0), (55, 57)].lookup i).getD i))

example :
    gEntry .c32 .lsb bytes_c32_lsb = 0x1b1a1918 ∧
    gPhoff .c32 .lsb bytes_c32_lsb = 60 ∧
    gShoff .c32 .lsb bytes_c32_lsb = 0x23222120 ∧
    gPhentsize .c32 .lsb bytes_c32_lsb = 33 ∧
    gPhnum .c32 .lsb bytes_c32_lsb = 0x2d2c ∧
    gPhdr .c32 .lsb bytes_c32_lsb 2 = { type := 0x81807f7e, offset := 0x85848382, paddr := 0x8d8c8b8a, filesz := 0x91908f8e, memsz := 0x95949392 } := by decide +kernel

example :
    gEntry .c32 .msb bytes_c32_msb = 0x18191a1b ∧
    gPhoff .c32 .msb bytes_c32_msb = 60 ∧
    gShoff .c32 .msb bytes_c32_msb = 0x20212223 ∧
    gPhentsize .c32 .msb bytes_c32_msb = 33 ∧
    gPhnum .c32 .msb bytes_c32_msb = 0x2c2d ∧
    gPhdr .c32 .msb bytes_c32_msb 2 = { type := 0x7e7f8081, offset := 0x82838485, paddr := 0x8a8b8c8d, filesz := 0x8e8f9091, memsz := 0x92939495 } := by decide +kernel

example :
    gEntry .c64 .lsb bytes_c64_lsb = 0x1f1e1d1c1b1a1918 ∧
    gPhoff .c64 .lsb bytes_c64_lsb = 61 ∧
    gShoff .c64 .lsb bytes_c64_lsb = 0x2f2e2d2c2b2a2928 ∧
    gPhentsize .c64 .lsb bytes_c64_lsb = 57 ∧
    gPhnum .c64 .lsb bytes_c64_lsb = 0x3938 ∧
    gPhdr .c64 .lsb bytes_c64_lsb 1 = { type := 0x79787776, offset := 0x8584838281807f7e, paddr := 0x9594939291908f8e, filesz := 0x9d9c9b9a99989796, memsz := 0xa5a4a3a2a1a09f9e } := by decide +kernel

example :
    gEntry .c64 .msb bytes_c64_msb = 0x18191a1b1c1d1e1f ∧
    gPhoff .c64 .msb bytes_c64_msb = 61 ∧
    gShoff .c64 .msb bytes_c64_msb = 0x28292a2b2c2d2e2f ∧
    gPhentsize .c64 .msb bytes_c64_msb = 57 ∧
    gPhnum .c64 .msb bytes_c64_msb = 0x3839 ∧
    gPhdr .c64 .msb bytes_c64_msb 1 = { type := 0x76777879, offset := 0x7e7f808182838485, paddr := 0x8e8f909192939495, filesz := 0x969798999a9b9c9d, memsz := 0x9e9fa0a1a2a3a4a5 } := by decide +kernel

/-- Extended numbering: `sh_info` of section header 0 counts if `e_phnum` is 0xffff, and only then. -/
example :
    let h32 := fun (o : List UInt8) (n : List UInt8) =>
      List.replicate 32 0 ++ o ++ List.replicate 8 0 ++ n ++ List.replicate 6 0 ++ List.replicate 28 7 ++ [1, 2, 3, 4, 9]
    let h64 := fun (o : List UInt8) (n : List UInt8) =>
      List.replicate 40 0 ++ o ++ List.replicate 8 0 ++ n ++ List.replicate 6 0 ++ List.replicate 44 7 ++ [1, 2, 3, 4, 9]
    gCount .c32 .lsb (h32 [52, 0, 0, 0] [0xff, 0xff]) = 0x04030201 ∧
    gCount .c32 .msb (h32 [0, 0, 0, 52] [0xff, 0xff]) = 0x01020304 ∧
    gCount .c32 .msb (h32 [0, 0, 0, 52] [0xff, 0xfe]) = 0xfffe ∧
    gCount .c64 .lsb (h64 [64, 0, 0, 0, 0, 0, 0, 0] [0xff, 0xff]) = 0x04030201 ∧
    gCount .c64 .lsb (h64 [64, 0, 0, 0, 0, 0, 0, 0] [0xfe, 0xff]) = 0xfffe ∧
    gCount .c64 .msb (h64 [0, 0, 0, 0, 0, 0, 0, 64] [0xff, 0xff]) = 0x01020304 := by decide +kernel

end LinuxLoader
