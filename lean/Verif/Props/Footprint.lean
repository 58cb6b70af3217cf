import Verif.Lemmas.Footprint
import Verif.Props.Elf
import Verif.Props.BzImage

/-!
# The bytes of a kernel image that the loaders look at (C84)

Vocabulary: `Spec/Footprint.lean`.
-/

namespace LinuxLoader
open Spec

/-- C84 (ELF): two images that agree on the bytes that can matter — the fields of the headers that are
used, the contents of loadable segments, and the note segments — are loaded alike: same result or error,
same guest memory afterwards. For every reader, with any I/O errors. -/
theorem C84_elf_unused {koff highmem : Option GuestAddr} {s : LS} {img' : List UInt8}
    (h : ElfAlike s.rd.data img' koff) :
    (elfLoad koff highmem (s.withImage img')).1 = (elfLoad koff highmem s).1 ∧
    (elfLoad koff highmem (s.withImage img')).2.mem = (elfLoad koff highmem s).2.mem := by
  have ha := alike_elfLoad (highmem := highmem) h
  exact ⟨ha.res.eq.symm, (congrArg LS.mem ha.st :)⟩

/-- C84 (ELF, header): in an image whose program headers and segments are behind the ELF header, the
fields that say for which machine and which kind of object the file is have no effect. -/
theorem C84_elf_header_unused {koff highmem : Option GuestAddr} {s : LS} {img' : List UInt8}
    (hlen : img'.length = s.rd.data.length)
    (hdiff : ∀ x, img'[x]? ≠ s.rd.data[x]? → ElfUnusedHeader x)
    (hoff : 64 ≤ elfPhoff s.rd.data)
    (hseg : ∀ h ∈ elfPhdrs s.rd.data, h.Loadable ∨ h.IsNote → 64 ≤ h.offset) :
    (elfLoad koff highmem (s.withImage img')).1 = (elfLoad koff highmem s).1 ∧
    (elfLoad koff highmem (s.withImage img')).2.mem = (elfLoad koff highmem s).2.mem := by
  refine C84_elf_unused ⟨fun x hx => ?_, fun x _ => by rw [hlen]⟩
  refine Decidable.byContradiction fun hne => ?_
  have hd := hdiff x hne
  have hlt : x < 64 := by unfold ElfUnusedHeader InRange at hd; omega
  rcases hx with hx | ⟨i, hi, hx⟩ | ⟨h, hh, hl, hx⟩ | ⟨_, h, hh, hn, _, hx⟩
  · unfold ElfUnusedHeader InRange at hd; unfold ElfHeaderByte InRange at hx; omega
  · unfold PhdrByte InRange at hx; omega
  · have := hseg h hh (.inl hl); unfold InRange at hx; omega
  · have := hseg h hh (.inr hn); unfold InRange at hx; omega

/-- C84: every byte of the ELF header either matters or is one of those that do not. -/
theorem C84_elf_header_split (x : Nat) : (ElfUnusedHeader x ∨ ElfHeaderByte x ↔ x < 64) ∧
    ¬ (ElfUnusedHeader x ∧ ElfHeaderByte x) := by
  unfold ElfUnusedHeader ElfHeaderByte InRange
  omega

theorem leField_one {l : List UInt8} {o : Nat} (h : o < l.length) : leField l o 1 = l[o].toNat := by
  unfold leField
  rw [List.drop_eq_getElem_cons h, List.take_succ_cons, List.take_zero]
  rfl

theorem leField_two {l : List UInt8} {o : Nat} (h : o + 1 < l.length) :
    leField l o 2 = l[o].toNat + 256 * l[o + 1].toNat := by
  unfold leField
  rw [List.drop_eq_getElem_cons (show o < l.length by omega), List.drop_eq_getElem_cons h,
    List.take_succ_cons, List.take_succ_cons, List.take_zero]
  rfl

/-- C84 (refuted expectation: `Elf::load` accepts only 64-bit x86-64 executables). For every image that
is accepted and whose segments are behind the ELF header, and for all values of the class, the object
type and the machine, there is an image with these values that is loaded exactly like it. -/
theorem C84_elf_any_target {koff highmem : Option GuestAddr} {s : LS} {r : LoadResult} {s' : LS}
    (hload : elfLoad koff highmem s = (.ok r, s')) (hlen : s.rd.data.length < ISZ)
    (hseg : ∀ h ∈ elfPhdrs s.rd.data, h.Loadable ∨ h.IsNote → 64 ≤ h.offset)
    (cls typ mach : Nat) (hc : cls < 256) (ht : typ < 65536) (hm : mach < 65536) :
    ∃ img', elfClass img' = cls ∧ elfType img' = typ ∧ elfMachine img' = mach ∧
      (∀ x, img'[x]? ≠ s.rd.data[x]? → ElfUnusedHeader x) ∧
      (elfLoad koff highmem (s.withImage img')).1 = .ok r ∧
      (elfLoad koff highmem (s.withImage img')).2.mem = s'.mem := by
  obtain ⟨hok, -⟩ := C36_elf_accepts_only_valid hlen hload
  have h64 := hok.complete
  let img' := ((((s.rd.data.set 4 (UInt8.ofNat cls)).set 16 (UInt8.ofNat (typ % 256))).set 17
    (UInt8.ofNat (typ / 256))).set 18 (UInt8.ofNat (mach % 256))).set 19 (UInt8.ofNat (mach / 256))
  have hl : img'.length = s.rd.data.length := by simp [img']
  have hdiff : ∀ x, img'[x]? ≠ s.rd.data[x]? → ElfUnusedHeader x := fun x hx => by
    refine Classical.byContradiction fun hn => hx ?_
    unfold ElfUnusedHeader InRange at hn
    simp only [img']
    rw [List.getElem?_set_ne (by omega), List.getElem?_set_ne (by omega), List.getElem?_set_ne (by omega),
      List.getElem?_set_ne (by omega), List.getElem?_set_ne (by omega)]
  have hload' := C84_elf_header_unused (koff := koff) (highmem := highmem) hl hdiff hok.phoff hseg
  rw [hload] at hload'
  refine ⟨img', ?_, ?_, ?_, hdiff, hload'.1, hload'.2⟩
  · unfold elfClass
    rw [leField_one (by omega)]
    simp only [img', List.getElem_set]
    simp
    omega
  · unfold elfType
    rw [leField_two (by omega)]
    simp only [img', List.getElem_set]
    simp
    omega
  · unfold elfMachine
    rw [leField_two (by omega)]
    simp only [img', List.getElem_set]
    simp
    omega

/-- A file that claims to be a 32-bit relocatable object for ARM. -/
def armObject : List UInt8 := ((demoElf.set 4 1).set 16 1).set 18 40

/-- It is accepted. -/
theorem C84_elf_target_refuted : ∃ (s : LS) (r : LoadResult), FaultFree s ∧
    elfClass s.rd.data = 1 ∧ elfType s.rd.data = 1 ∧ elfMachine s.rd.data = 40 ∧
    (elfLoad none none s).1 = .ok r :=
  ⟨⟨⟨armObject, 0, fun _ => .ok, 0⟩, elfMem⟩, ⟨0x10, 0x43, none, .present 0x1000000⟩, fun _ => rfl,
    by decide +kernel, by decide +kernel, by decide +kernel, by decide +kernel⟩

/-- The hypotheses of the theorems above hold for the demo image. -/
theorem demoElf_apart : (∀ h ∈ elfPhdrs demoElf, h.Loadable ∨ h.IsNote → 64 ≤ h.offset) ∧ 64 ≤ elfPhoff demoElf ∧
    demoElf.length < ISZ ∧ (elfLoad none none demoState).1.isOk = true := by decide +kernel

/-- C84 (ELF, end of file): bytes behind a file that is accepted have no effect. -/
theorem C84_elf_trailing {koff highmem : Option GuestAddr} {s s' : LS} {r : LoadResult}
    (h : elfLoad koff highmem s = (.ok r, s')) (tail : List UInt8) :
    (elfLoad koff highmem (s.withImage (s.rd.data ++ tail))).1 = .ok r ∧
    (elfLoad koff highmem (s.withImage (s.rd.data ++ tail))).2.mem = s'.mem := by
  have := (Longer.elfLoad (tail := tail) koff highmem).ok s r s' h
  rw [this]
  exact ⟨rfl, rfl⟩

/-- A minimal image: one loadable segment with one byte. -/
def tightElf : List UInt8 := mkEhdr 0 64 56 1 ++ mkPhdr 1 120 0 1 1 ++ [0xaa]

/-- The state in which it is loaded. -/
def tightState (img : List UInt8) : LS := ⟨⟨img, 0, fun _ => .ok, 0⟩, elfMem⟩

theorem tightElf_phdrs : elfPhdrs tightElf = [⟨1, 120, 0, 1, 1⟩] ∧ elfPhnum tightElf = 1 ∧
    elfPhoff tightElf = 64 := by decide +kernel

theorem tightElf_all : ∀ x, x < 121 →
    (x < 4 ∨ x = 5 ∨ (24 ≤ x ∧ x < 40) ∨ (54 ≤ x ∧ x < 58) ∨ (64 ≤ x ∧ x < 68) ∨ (72 ≤ x ∧ x < 80) ∨
      (88 ≤ x ∧ x < 112) ∨ x = 120) →
    (elfLoad none none (tightState (tightElf.set x (tightElf[x]?.getD 0 + 1)))).1 ≠
      (elfLoad none none (tightState tightElf)).1 ∨
    (elfLoad none none (tightState (tightElf.set x (tightElf[x]?.getD 0 + 1)))).2.mem.data 0 ≠
      (elfLoad none none (tightState tightElf)).2.mem.data 0 := by decide +kernel

/-- C84 (the bytes named do matter): there is an accepted image in which a change of any single byte that
can matter according to `ElfUses` changes the result or guest memory. So no smaller set of header bytes,
program header bytes and contents would do. -/
theorem C84_elf_uses_tight : ∃ s : LS, FaultFree s ∧ (elfLoad none none s).1.isOk = true ∧
    ∀ x, ElfUses s.rd.data none x → ∃ b : UInt8,
      (elfLoad none none (s.withImage (s.rd.data.set x b))).1 ≠ (elfLoad none none s).1 ∨
      ∃ y, (elfLoad none none (s.withImage (s.rd.data.set x b))).2.mem.data y ≠
        (elfLoad none none s).2.mem.data y := by
  refine ⟨tightState tightElf, fun _ => rfl, by decide +kernel, fun x hx => ?_⟩
  obtain ⟨h1, h2, h3⟩ := tightElf_phdrs
  have hx : x < 121 ∧ (x < 4 ∨ x = 5 ∨ (24 ≤ x ∧ x < 40) ∨ (54 ≤ x ∧ x < 58) ∨ (64 ≤ x ∧ x < 68) ∨
      (72 ≤ x ∧ x < 80) ∨ (88 ≤ x ∧ x < 112) ∨ x = 120) := by
    rcases hx with hx | ⟨i, hi, hx⟩ | ⟨h, hh, hl, hx⟩ | ⟨_, h, hh, hn, _, hx⟩
    · unfold ElfHeaderByte InRange at hx; omega
    · have hi : i < elfPhnum tightElf := hi
      have hx : PhdrByte (elfPhoff tightElf + 56 * i) x := hx
      rw [h2] at hi
      rw [h3] at hx
      unfold PhdrByte InRange at hx
      omega
    · have hh : h ∈ elfPhdrs tightElf := hh
      rw [h1, List.mem_singleton] at hh
      subst hh
      unfold InRange at hx
      simp only at hx
      omega
    · have hh : h ∈ elfPhdrs tightElf := hh
      rw [h1, List.mem_singleton] at hh
      subst hh
      exact absurd hn (by decide)
  rcases tightElf_all x hx.1 hx.2 with h | h
  · exact ⟨_, .inl h⟩
  · exact ⟨_, .inr ⟨0, h⟩⟩

/-- A note segment of one byte, and behind it the rest of a PVH note. -/
def straddlingNote : List UInt8 := mkEhdr 0 64 56 1 ++ mkPhdr 4 120 0 1 1 ++
  Note.encode ⟨18, [0x58, 0x65, 0x6e, 0], [0, 0, 0, 1]⟩

/-- C84 (refuted expectation: only headers and segments matter). A byte behind the end of a note segment,
and in no header and no segment, can decide the PVH entry point. So the 19 bytes in `ElfUses` are
necessary. -/
theorem C84_elf_note_overrun_refuted : ∃ (s : LS) (x : Nat) (b : UInt8), FaultFree s ∧
    64 ≤ x ∧ (∀ i, i < elfPhnum s.rd.data → ¬ InRange (elfPhoff s.rd.data + 56 * i) 56 x) ∧
    (∀ h ∈ elfPhdrs s.rd.data, ¬ InRange h.offset h.filesz x) ∧
    (elfLoad none none s).1 = .ok ⟨0, 0, none, .present 0x1000000⟩ ∧
    (elfLoad none none (s.withImage (s.rd.data.set x b))).1 = .ok ⟨0, 0, none, .present 0x2000000⟩ := by
  refine ⟨tightState straddlingNote, 139, 2, fun _ => rfl, by decide, ?_, by decide +kernel,
    by decide +kernel, by decide +kernel⟩
  have h1 : elfPhnum straddlingNote = 1 ∧ elfPhoff straddlingNote = 64 := by decide +kernel
  intro i hi
  show ¬ InRange (elfPhoff straddlingNote + 56 * i) 56 139
  have hi : i < elfPhnum straddlingNote := hi
  rw [h1.1] at hi
  rw [h1.2]
  unfold InRange
  omega

/-- C84 (bzImage): two images of the same size with the same setup header and the same protected-mode
kernel are loaded alike; the boot sector and setup code do not matter. For every reader, with any I/O
errors and short reads. -/
theorem C84_bz_unused {koff highmem : Option GuestAddr} {s : LS} {img' : List UInt8}
    (h : BzAlike s.rd.data img') :
    (bzLoad koff highmem (s.withImage img')).1 = (bzLoad koff highmem s).1 ∧
    (bzLoad koff highmem (s.withImage img')).2.mem = (bzLoad koff highmem s).2.mem := by
  have ha := alike_bzLoad (koff := koff) (highmem := highmem) h
  exact ⟨ha.res.eq.symm, (congrArg LS.mem ha.st :)⟩

/-- An image with other boot code. -/
example : BzAlike demoBz ((demoBz.set 0 0xea).set 0x270 0x90) ∧ (demoBz.set 0 0xea).set 0x270 0x90 ≠ demoBz :=
  ⟨⟨by decide +kernel, by decide +kernel, by decide +kernel⟩, by decide +kernel⟩

/-- An image for another machine (`e_type`, `e_machine` changed). -/
example := C84_elf_header_unused (koff := none) (highmem := none) (s := ⟨.cursor demoElf, elfMem⟩)
  (img' := (demoElf.set 16 3).set 18 0xb7) (by decide +kernel)
  (by
    intro x hx
    have h16 : x = 16 ∨ x = 18 := by
      refine Decidable.byContradiction fun hne => hx ?_
      rw [List.getElem?_set_ne (by omega), List.getElem?_set_ne (by omega)]; rfl
    rcases h16 with rfl | rfl <;> (unfold ElfUnusedHeader InRange; omega))
  (by decide +kernel) (by decide +kernel)

example : (demoElf.set 16 3).set 18 0xb7 ≠ demoElf := by decide +kernel

example := C84_elf_any_target (ran demoElf_loads) demoElf_short demoElf_apart.1 1 1 40 (by decide) (by decide)
  (by decide)

example := C84_elf_trailing (ran demoElf_loads) [1, 2, 3]

end LinuxLoader
