import Verif.Spec.HeaderDoc
import Verif.Props.Assign
import Verif.Props.Pe
import Verif.Props.Elf
import Verif.Lemmas.Images

/-!
# Reading, changing and writing exported structures as bytes (C106)
-/

namespace LinuxLoader
open Layout Types Spec

mutual
/-- No gaps between the fields. -/
def denseTy : Ty → Bool
  | .int _ => true
  | .arr t _ => denseTy t
  | .struct cap fs => denseFields cap 0 fs &&
    roundUp (place cap 0 fs.layouts).2 (maxAlign cap fs.layouts) == (place cap 0 fs.layouts).2
/-- No gaps between fields, the first of which is at `off`. -/
def denseFields (cap : Nat) : Nat → Fields → Bool
  | _, .nil => true
  | off, .cons _ t rest => roundUp off (min cap t.layout.align) == off && denseTy t &&
    denseFields cap (off + t.layout.size) rest
end

theorem flatten_pieces (w : Nat) : ∀ (n : Nat) (b : List UInt8),
    (List.ofFn fun i : Fin n => (b.drop (i.val * w)).take w).flatten = b.take (w * n)
  | 0, b => by simp
  | n + 1, b => by
    have := flatten_pieces w n (b.drop w)
    rw [List.ofFn_succ, List.flatten_cons]
    simp only [Fin.val_zero, Nat.zero_mul, List.drop_zero, Fin.val_succ]
    simp only [List.drop_drop] at this
    rw [show w * (n + 1) = w + w * n by rw [Nat.mul_add]; omega, List.take_add, ← this]
    congr 2
    refine congrArg List.ofFn (funext fun i => ?_)
    rw [Nat.add_mul, Nat.one_mul, Nat.add_comm]

theorem place_ge (cap : Nat) : ∀ (fs : Fields) (off : Nat), denseFields cap off fs = true →
    off ≤ (place cap off fs.layouts).2
  | .nil, off, _ => Nat.le_refl _
  | .cons n t rest, off, h => by
    simp only [denseFields, Bool.and_eq_true, beq_iff_eq] at h
    have := place_ge cap rest _ h.2
    simp only [Fields.layouts, place, h.1.1]
    omega

mutual
/-- Bytes read into a structure without gaps are the bytes of the structure. -/
theorem asSlice_ofSlice : ∀ t : Ty, denseTy t = true → ∀ b : List UInt8, t.layout.size ≤ b.length →
    t.asSlice (t.ofSlice b) = b.take t.layout.size
  | .int n, _, b, hb => by
    show leBytes n (BitVec.toNat (BitVec.ofNat (8 * n) (leNat (b.take n)))) = b.take n
    have hl : (b.take n).length = n := by
      rw [List.length_take]; exact Nat.min_eq_left hb
    rw [BitVec.toNat_ofNat, Nat.pow_mul, leBytes_mod]
    have := leBytes_leNat (b.take n)
    rwa [hl] at this
  | .arr t n, h, b, hb => by
    have h' : denseTy t = true := by simpa [denseTy] using h
    show (List.ofFn fun i => t.asSlice (t.ofSlice (b.drop (i.val * t.layout.size)))).flatten =
      b.take (t.layout.size * n)
    rw [← flatten_pieces]
    congr 1
    refine congrArg List.ofFn (funext fun i => ?_)
    refine asSlice_ofSlice t h' _ ?_
    rw [List.length_drop]
    have h1 : t.layout.size * n ≤ b.length := hb
    have h2 : (i.val + 1) * t.layout.size ≤ n * t.layout.size := Nat.mul_le_mul_right _ i.isLt
    rw [Nat.add_mul, Nat.one_mul, Nat.mul_comm n] at h2
    omega
  | .struct cap fs, h, b, hb => by
    rw [denseTy, Bool.and_eq_true, beq_iff_eq] at h
    have hsz : (Ty.struct cap fs).layout.size = (place cap 0 fs.layouts).2 := h.2
    have := slices_ofSlices cap fs 0 h.1 b (by rw [← hsz]; exact hb) [] (by simp)
    show encode (structOf cap fs.layouts) (fs.slices (Fields.ofSlices cap fs 0 b)) = _
    rw [encode, hsz]
    have this : encodeFields (structOf cap fs.layouts).fields (fs.slices (Fields.ofSlices cap fs 0 b)) [] =
      b.take (place cap 0 fs.layouts).2 := this
    rw [this, show (structOf cap fs.layouts).size = (place cap 0 fs.layouts).2 from h.2, List.length_take,
      Nat.min_eq_left (by rw [← hsz]; exact hb), Nat.sub_self]
    simp
theorem slices_ofSlices (cap : Nat) : ∀ (fs : Fields) (off : Nat), denseFields cap off fs = true → ∀ b : List UInt8,
    (place cap off fs.layouts).2 ≤ b.length → ∀ acc : List UInt8, acc = b.take off →
    encodeFields (place cap off fs.layouts).1 (fs.slices (Fields.ofSlices cap fs off b)) acc =
      b.take (place cap off fs.layouts).2
  | .nil, off, _, b, _, acc, ha => by
    simp only [Fields.layouts, place, Fields.slices, encodeFields, ha]
  | .cons n t rest, off, h, b, hb, acc, ha => by
    have hg := place_ge cap rest
    simp only [denseFields, Bool.and_eq_true, beq_iff_eq] at h
    obtain ⟨⟨h1, h2⟩, h3⟩ := h
    have hg := hg _ h3
    simp only [Fields.layouts, place, h1] at hb
    have e := asSlice_ofSlice t h2 (b.drop off) (by rw [List.length_drop]; omega)
    have ih := slices_ofSlices cap rest _ h3 b hb (acc ++ t.asSlice (t.ofSlice (b.drop off)))
      (by rw [e, ha, List.take_add])
    simp only [Fields.layouts, place, Fields.slices, Fields.ofSlices, encodeFields, h1]
    have hl : off - acc.length = 0 := by rw [ha, List.length_take]; omega
    rw [hl, List.replicate_zero, List.append_nil]
    exact ih
end

theorem exported_located : ∀ x ∈ exported, soundTy x.1 = true ∧ denseTy x.1 = true ∧ x.1.layout.size = x.2.1 ∧
    ∀ e ∈ x.2.2, leadsTo x.1 e = true := by decide +kernel

/-- **C106.** Reading one of the exported structures from bytes (an image, guest memory): every integer has the value
that the documentation's place for it has in the bytes, and the structure has exactly these bytes. -/
theorem C106_read : ∀ x ∈ exported, ∀ b : List UInt8, x.2.1 ≤ b.length →
    (∀ e ∈ x.2.2, x.1.get (x.1.ofSlice b) e.1 = some (leField b e.2.1 e.2.2)) ∧
    x.1.asSlice (x.1.ofSlice b) = b.take x.2.1 := by
  intro x hx b hb
  obtain ⟨-, h2, h3, h4⟩ := exported_located x hx
  refine ⟨fun e he => get_ofSlice _ _ _ _ _ (leadsTo_spec (h4 e he)), ?_⟩
  rw [asSlice_ofSlice _ h2 b (by rw [h3]; exact hb), h3]

/-- **C106.** Writing one of the exported structures as bytes and reading it back gives it unchanged, also if more
bytes follow. -/
theorem C106_write : ∀ x ∈ exported, ∀ (v : x.1.Val) (rest : List UInt8),
    (x.1.asSlice v).length = x.2.1 ∧ x.1.ofSlice (x.1.asSlice v ++ rest) = v := by
  intro x hx v rest
  obtain ⟨h1, -, h3, -⟩ := exported_located x hx
  refine ⟨by rw [(sound_ty _ h1).2, h3], ofSlice_asSlice _ h1 v _ fun j y hy => ?_⟩
  rw [Nat.zero_add, List.getElem?_append_left (List.getElem?_eq_some_iff.1 hy).1]
  exact hy

/-- **C106.** Read, assign to one integer, write back: exactly the bytes of that integer's documented place change, to
the new value modulo its width. -/
theorem C106_change : ∀ x ∈ exported, ∀ b : List UInt8, b.length = x.2.1 → ∀ e ∈ x.2.2, ∀ n : Nat,
    leField (x.1.asSlice (x.1.set (x.1.ofSlice b) e.1 n)) e.2.1 e.2.2 = n % 256 ^ e.2.2 ∧
    ∀ j, (j < e.2.1 ∨ e.2.1 + e.2.2 ≤ j) → (x.1.asSlice (x.1.set (x.1.ofSlice b) e.1 n))[j]? = b[j]? := by
  intro x hx b hb e he n
  obtain ⟨h1, -, -, h4⟩ := exported_located x hx
  obtain ⟨-, hr⟩ := C106_read x hx b (Nat.le_of_eq hb.symm)
  rw [← hb, List.take_length] at hr
  obtain ⟨-, p2, p3⟩ := set_patch e.1 x.1 h1 (x.1.ofSlice b) _ _ n (leadsTo_spec (h4 e he))
  rw [hr, leBytes_length] at p2
  refine ⟨?_, p2⟩
  have := subAt_take (subAt_drop p3)
  rw [leBytes_length] at this
  rw [leField, this, leNat_leBytes]

/-- **C106.** A VMM that reads the header of an arm64 or riscv64 image itself sees the values `PE::load` works with:
the magic number, and where the image goes. -/
theorem C106_pe {koff highmem : Option GuestAddr} {s s' : LS} {r : LoadResult} :
    (peLoad .arm64 koff highmem s = (.ok r, s') → ∃ text size,
      arm64ImageHeader.get (arm64ImageHeader.ofSlice s.rd.data) [.field "magic"] = some 0x644d5241 ∧
      arm64ImageHeader.get (arm64ImageHeader.ofSlice s.rd.data) [.field "text_offset"] = some text ∧
      arm64ImageHeader.get (arm64ImageHeader.ofSlice s.rd.data) [.field "image_size"] = some size ∧
      r.kernelLoad = koffBase koff + if size = 0 then 0x80000 else text) ∧
    (peLoad .riscv64 koff highmem s = (.ok r, s') → ∃ text,
      riscv64ImageHeader.get (riscv64ImageHeader.ofSlice s.rd.data) [.field "magic2"] = some 0x05435352 ∧
      riscv64ImageHeader.get (riscv64ImageHeader.ofSlice s.rd.data) [.field "text_offset"] = some text ∧
      r.kernelLoad = koffBase koff + text) := by
  have key : ∀ {arch}, peLoad arch koff highmem s = (.ok r, s') → 64 ≤ s.rd.data.length ∧ PeMagicOk arch s.rd.data := by
    intro arch h
    constructor
    · refine Nat.le_of_not_lt fun hl => ?_
      obtain ⟨⟨e, he⟩, -⟩ := C52_pe_rejects (arch := arch) (koff := koff) (highmem := highmem) (.inl hl)
      rw [h] at he; cases he
    · refine Classical.byContradiction fun hl => ?_
      obtain ⟨⟨e, he⟩, -⟩ := C52_pe_rejects (arch := arch) (koff := koff) (highmem := highmem) (.inr (.inl hl))
      rw [h] at he; cases he
  constructor
  · intro h
    obtain ⟨h1, h2⟩ := key h
    obtain ⟨hr, -⟩ := C106_read _ (.head _) s.rd.data h1
    have hm := hr ([.field "magic"], 56, 4) (by decide)
    have ht := hr ([.field "text_offset"], 8, 8) (by decide)
    have hz := hr ([.field "image_size"], 16, 8) (by decide)
    refine ⟨_, _, ?_, ht, hz, ?_⟩
    · refine hm.trans (congrArg some ?_)
      show leNat ((s.rd.data.drop 56).take 4) = _
      rw [h2]; rfl
    · have := (C51_pe_image_in_place h).2.2.1
      simpa using this
  · intro h
    obtain ⟨h1, h2⟩ := key h
    obtain ⟨hr, -⟩ := C106_read _ (.tail _ (.head _)) s.rd.data h1
    have hm := hr ([.field "magic2"], 56, 4) (by decide)
    have ht := hr ([.field "text_offset"], 8, 8) (by decide)
    refine ⟨_, ?_, ht, ?_⟩
    · refine hm.trans (congrArg some ?_)
      show leNat ((s.rd.data.drop 56).take 4) = _
      rw [h2]; rfl
    · have := (C51_pe_image_in_place h).2.2.1
      simpa using this

/-- **C106.** A VMM that reads the headers of an ELF image itself, `e_phnum` program headers of 56 bytes from `e_phoff`
on, sees the entry point and the segments `Elf::load` works with. -/
theorem C106_elf {koff highmem : Option GuestAddr} {s s' : LS} {r : LoadResult} (hlen : s.rd.data.length < ISZ)
    (h : elfLoad koff highmem s = (.ok r, s')) :
    ∃ entry phoff phnum,
      elf64Ehdr.get (elf64Ehdr.ofSlice s.rd.data) [.field "e_entry"] = some entry ∧
      elf64Ehdr.get (elf64Ehdr.ofSlice s.rd.data) [.field "e_phoff"] = some phoff ∧
      elf64Ehdr.get (elf64Ehdr.ofSlice s.rd.data) [.field "e_phnum"] = some phnum ∧
      elf64Ehdr.get (elf64Ehdr.ofSlice s.rd.data) [.field "e_phentsize"] = some 56 ∧
      r.kernelLoad = koffBase koff + entry ∧
      (List.range phnum).map (fun i => phdrOf (elf64Phdr.ofSlice (s.rd.data.drop (phoff + 56 * i)))) =
        (elfPhdrs s.rd.data).map some := by
  obtain ⟨ho, hc⟩ := C36_elf_accepts_only_valid hlen h
  obtain ⟨hr, -⟩ := C106_read _ (.tail _ (.tail _ (.head _))) s.rd.data ho.complete
  have he := hr ([.field "e_entry"], 24, 8) (by decide)
  have hp := hr ([.field "e_phoff"], 32, 8) (by decide)
  have hn := hr ([.field "e_phnum"], 56, 2) (by decide)
  have hz := hr ([.field "e_phentsize"], 54, 2) (by decide)
  refine ⟨_, _, _, he, hp, hn, hz.trans (congrArg some ho.phentsize), (C37_elf_result_fields hlen h).1, ?_⟩
  rw [elfPhdrs, List.map_map]
  refine List.map_congr_left fun i hi => ?_
  have hi : i < elfPhnum s.rd.data := List.mem_range.1 hi
  have hl := hc i hi
  obtain ⟨hr, -⟩ := C106_read _ (.tail _ (.tail _ (.tail _ (.head _)))) (s.rd.data.drop (elfPhoff s.rd.data + 56 * i))
    (by rw [List.length_drop]; show 56 ≤ _; omega)
  have e : ∀ o n, leField (s.rd.data.drop (elfPhoff s.rd.data + 56 * i)) o n =
      leField s.rd.data (elfPhoff s.rd.data + 56 * i + o) n := by
    intro o n
    rw [leField, leField, List.drop_drop]
  have h1 := hr ([.field "p_type"], 0, 4) (by decide)
  have h2 := hr ([.field "p_offset"], 8, 8) (by decide)
  have h3 := hr ([.field "p_paddr"], 24, 8) (by decide)
  have h4 := hr ([.field "p_filesz"], 32, 8) (by decide)
  have h5 := hr ([.field "p_memsz"], 40, 8) (by decide)
  simp only [e] at h1 h2 h3 h4 h5
  show phdrOf (elf64Phdr.ofSlice (s.rd.data.drop (elfPhoff s.rd.data + 56 * i))) = some (phdrAt s.rd.data i)
  rw [phdrOf, h1, h2, h3, h4, h5]
  rfl

/-! ### Concrete cases -/

example : ∀ x ∈ exported, 0 < x.2.2.length ∧ x.2.1 ≤ (List.replicate 4096 (0x5a : UInt8)).length := by decide +kernel

/-- A 64-bit field of the arm64 header set to a value that does not fit. -/
example := C106_change _ (.head _) (List.replicate 64 0x11) (by decide +kernel) ([.field "text_offset"], 8, 8) (by decide)
  0x1_0000_0000_0000_0007

example := C106_pe.1 (ran demoPe_loads.1)
example := C106_pe.2 (ran demoPe_loads.2.2)
example := C106_elf demoElf_short (ran demoElf_loads)
example : 2 ≤ (elfPhdrs demoElf).length := by decide +kernel

end LinuxLoader
