import Verif.Lemmas.Bytes
import Verif.Props.Config

/-!
# Typed boot structures (C34) and layouts (C56)
-/

namespace LinuxLoader
open Spec

/-- Address ranges of `n` bytes at `a` and `k` bytes at `b` have no address in common. -/
def DisjointRanges (a n b k : Nat) : Prop := ∀ x, ¬ (InRange a n x ∧ InRange b k x)

/-- **C34.** A guest booted through PVH sees the start info, every memory map entry and every module
entry as the VMM filled them in, at `start + i * entry size`. -/
theorem C34_pvh_round_trip (si : HvmStartInfo) (es : List HvmMemmapEntry) (ms : List HvmModlistEntry)
    (sa ea ma : GuestAddr) (m m' : Mem) (hw : m.WF)
    (h : pvhWrite (((BootParams.new si.asSlice sa).setSections (es.map (·.asSlice)) ea).setModules
      (ms.map (·.asSlice)) ma) m = (.ok (), m'))
    (h1 : DisjointRanges sa.toNat 56 ea.toNat (24 * es.length))
    (h2 : DisjointRanges sa.toNat 56 ma.toNat (32 * ms.length))
    (h3 : DisjointRanges ea.toNat (24 * es.length) ma.toNat (32 * ms.length)) :
    StartInfoAt m'.data sa.toNat si ∧
    (∀ i e, es[i]? = some e → MemmapEntryAt m'.data (ea.toNat + i * 24) e) ∧
    (∀ i e, ms[i]? = some e → ModlistEntryAt m'.data (ma.toNat + i * 32) e) := by
  have w1 : ∀ x ∈ es.map (·.asSlice), x.length = 24 := by
    intro x hx; obtain ⟨e, -, rfl⟩ := List.mem_map.1 hx; rw [memmapEntry_slice]; simp
  have w2 : ∀ x ∈ ms.map (·.asSlice), x.length = 32 := by
    intro x hx; obtain ⟨e, -, rfl⟩ := List.mem_map.1 hx; rw [modlistEntry_slice]; simp
  have w0 : si.asSlice.length = 56 := by rw [startInfo_slice]; simp
  have l1 : (es.map (·.asSlice)).flatten.length = 24 * es.length := by
    rw [flatten_length w1, List.length_map, Nat.mul_comm]
  have l2 : (ms.map (·.asSlice)).flatten.length = 32 * ms.length := by
    rw [flatten_length w2, List.length_map, Nat.mul_comm]
  obtain ⟨b, a, hb, ha, g1, g2, g3, -⟩ := C31_disjoint _ m m' hw h (by
    simp only [pvhPieces, optPiece, BootParams.setModules, BootParams.setSections, BootParams.new,
      List.cons_append, List.nil_append, List.pairwise_cons, List.mem_cons, List.not_mem_nil,
      or_false, forall_eq_or_imp, forall_eq, false_implies, implies_true, List.Pairwise.nil,
      and_true, w0, l1, l2]
    exact ⟨⟨fun x hx => h1 x ⟨hx.2, hx.1⟩, h3⟩, h2⟩)
  cases hb; cases ha
  obtain ⟨ma', hma, g4⟩ := g3 _ rfl
  cases hma
  refine ⟨startInfo_at g2, ?_, ?_⟩
  · intro i e he
    exact memmapEntry_at (holds_flatten w1 g1 i _ (by rw [List.getElem?_map, he]; rfl))
  · intro i e he
    exact modlistEntry_at (holds_flatten w2 g4 i _ (by rw [List.getElem?_map, he]; rfl))

/-- A case with one memory map entry and one module. -/
example :
    (pvhWrite (((BootParams.new (HvmStartInfo.mk 0x336ec578 1 0 1 0x1080 0 0 0x1040 1 0).asSlice
      0x1000).setSections ([HvmMemmapEntry.mk 0 0x9fc00 1 0].map (·.asSlice)) 0x1040).setModules
      ([HvmModlistEntry.mk 0x2000 0x10 0 0].map (·.asSlice)) 0x1080) cfgMem).1 = .ok () ∧
    DisjointRanges 0x1000 56 0x1040 24 ∧ DisjointRanges 0x1000 56 0x1080 32 ∧
    DisjointRanges 0x1040 24 0x1080 32 := by
  refine ⟨by decide +kernel, ?_, ?_, ?_⟩ <;> intro x <;> simp only [InRange] <;> omega

/-! ## Layouts -/

namespace Layout

/-- The field offsets are those given, and nothing is missing: the fields cover the structure without
gaps, in order, from 0 to its size. -/
def Documented (l : Layout) (size : Nat) (offsets : List (String × Nat)) : Prop :=
  l.size = size ∧ (l.fields.map (·.2.2)).sum = size ∧ ∀ p ∈ offsets, l.offset p.1 = some p.2

instance (l : Layout) (n : Nat) (o : List (String × Nat)) : Decidable (Documented l n o) := by
  unfold Documented; infer_instance

/-- **C56.** The zero page: offsets of the x86 boot protocol (Documentation/arch/x86/zero-page.rst). -/
theorem C56_boot_params : Documented bootParams 4096
    [("screen_info", 0x000), ("apm_bios_info", 0x040), ("tboot_addr", 0x058), ("ist_info", 0x060),
     ("acpi_rsdp_addr", 0x070), ("hd0_info", 0x080), ("hd1_info", 0x090), ("sys_desc_table", 0x0a0),
     ("olpc_ofw_header", 0x0b0), ("ext_ramdisk_image", 0x0c0), ("ext_ramdisk_size", 0x0c4),
     ("ext_cmd_line_ptr", 0x0c8), ("cc_blob_address", 0x13c), ("edid_info", 0x140),
     ("efi_info", 0x1c0), ("alt_mem_k", 0x1e0), ("scratch", 0x1e4), ("e820_entries", 0x1e8),
     ("eddbuf_entries", 0x1e9), ("edd_mbr_sig_buf_entries", 0x1ea), ("kbd_status", 0x1eb),
     ("secure_boot", 0x1ec), ("sentinel", 0x1ef), ("hdr", 0x1f1), ("edd_mbr_sig_buffer", 0x290),
     ("e820_table", 0x2d0), ("eddbuf", 0xd00)] := by decide +kernel

/-- **C56.** The setup header: offsets of Documentation/arch/x86/boot.rst, relative to 0x1f1. -/
theorem C56_setup_header : Documented setupHeader 123
    [("setup_sects", 0x1f1 - 0x1f1), ("root_flags", 0x1f2 - 0x1f1), ("syssize", 0x1f4 - 0x1f1),
     ("ram_size", 0x1f8 - 0x1f1), ("vid_mode", 0x1fa - 0x1f1), ("root_dev", 0x1fc - 0x1f1),
     ("boot_flag", 0x1fe - 0x1f1), ("jump", 0x200 - 0x1f1), ("header", 0x202 - 0x1f1),
     ("version", 0x206 - 0x1f1), ("realmode_swtch", 0x208 - 0x1f1),
     ("start_sys_seg", 0x20c - 0x1f1), ("kernel_version", 0x20e - 0x1f1),
     ("type_of_loader", 0x210 - 0x1f1), ("loadflags", 0x211 - 0x1f1),
     ("setup_move_size", 0x212 - 0x1f1), ("code32_start", 0x214 - 0x1f1),
     ("ramdisk_image", 0x218 - 0x1f1), ("ramdisk_size", 0x21c - 0x1f1),
     ("bootsect_kludge", 0x220 - 0x1f1), ("heap_end_ptr", 0x224 - 0x1f1),
     ("ext_loader_ver", 0x226 - 0x1f1), ("ext_loader_type", 0x227 - 0x1f1),
     ("cmd_line_ptr", 0x228 - 0x1f1), ("initrd_addr_max", 0x22c - 0x1f1),
     ("kernel_alignment", 0x230 - 0x1f1), ("relocatable_kernel", 0x234 - 0x1f1),
     ("min_alignment", 0x235 - 0x1f1), ("xloadflags", 0x236 - 0x1f1),
     ("cmdline_size", 0x238 - 0x1f1), ("hardware_subarch", 0x23c - 0x1f1),
     ("hardware_subarch_data", 0x240 - 0x1f1), ("payload_offset", 0x248 - 0x1f1),
     ("payload_length", 0x24c - 0x1f1), ("setup_data", 0x250 - 0x1f1),
     ("pref_address", 0x258 - 0x1f1), ("init_size", 0x260 - 0x1f1),
     ("handover_offset", 0x264 - 0x1f1), ("kernel_info_offset", 0x268 - 0x1f1)] := by
  decide +kernel

/-- **C56.** The PVH structures (Xen start_info.h). -/
theorem C56_start_info :
    Documented hvmStartInfo 56 [("magic", 0), ("version", 4), ("flags", 8), ("nr_modules", 12),
      ("modlist_paddr", 16), ("cmdline_paddr", 24), ("rsdp_paddr", 32), ("memmap_paddr", 40),
      ("memmap_entries", 48), ("reserved", 52)] ∧
    Documented hvmModlistEntry 32 [("paddr", 0), ("size", 8), ("cmdline_paddr", 16),
      ("reserved", 24)] ∧
    Documented hvmMemmapTableEntry 24 [("addr", 0), ("size", 8), ("type_", 16),
      ("reserved", 20)] := by decide +kernel

/-- **C56.** The 64-bit ELF structures (System V gABI). -/
theorem C56_elf :
    Documented elf64Ehdr 64 [("e_ident", 0), ("e_type", 16), ("e_machine", 18), ("e_version", 20),
      ("e_entry", 24), ("e_phoff", 32), ("e_shoff", 40), ("e_flags", 48), ("e_ehsize", 52),
      ("e_phentsize", 54), ("e_phnum", 56), ("e_shentsize", 58), ("e_shnum", 60),
      ("e_shstrndx", 62)] ∧
    Documented elf64Phdr 56 [("p_type", 0), ("p_flags", 4), ("p_offset", 8), ("p_vaddr", 16),
      ("p_paddr", 24), ("p_filesz", 32), ("p_memsz", 40), ("p_align", 48)] ∧
    Documented elf64Nhdr 12 [("n_namesz", 0), ("n_descsz", 4), ("n_type", 8)] := by decide +kernel

theorem roundUp_ge (n a : Nat) (ha : 0 < a) : n ≤ roundUp n a ∧ a ∣ roundUp n a := by
  unfold roundUp
  refine ⟨?_, Nat.dvd_mul_left _ _⟩
  have h := Nat.div_add_mod (n + a - 1) a
  have h2 := Nat.mod_lt (n + a - 1) ha
  have h3 : a * ((n + a - 1) / a) = (n + a - 1) / a * a := Nat.mul_comm _ _
  omega

theorem place_spec (cap : Nat) (hc : 0 < cap) (fs : List (String × Layout))
    (ha : ∀ f ∈ fs, 0 < f.2.align) (off : Nat) :
    off ≤ (place cap off fs).2 ∧
    (∀ g ∈ (place cap off fs).1, off ≤ g.2.1 ∧ g.2.1 + g.2.2 ≤ (place cap off fs).2) ∧
    (place cap off fs).1.Pairwise (fun g h => g.2.1 + g.2.2 ≤ h.2.1) := by
  induction fs generalizing off with
  | nil => exact ⟨Nat.le_refl _, fun g hg => (nomatch hg), .nil⟩
  | cons f fs ih =>
    obtain ⟨n, t⟩ := f
    have hpos : 0 < min cap t.align := by have := ha (n, t) (by simp); simp only at this; omega
    have hr := (roundUp_ge off _ hpos).1
    obtain ⟨h1, h2, h3⟩ := ih (fun f hf => ha f (by simp [hf])) (roundUp off (min cap t.align) + t.size)
    simp only [place]
    refine ⟨by omega, ?_, ?_⟩
    · intro g hg
      rcases List.mem_cons.1 hg with rfl | hg
      · simp only; omega
      · have := h2 g hg; omega
    · refine List.pairwise_cons.2 ⟨fun g hg => (h2 g hg).1, h3⟩

/-- **C56**, for every structure definition and either representation: fields keep their order, do not
overlap and lie within the structure. -/
theorem C56_fields_disjoint (cap : Nat) (hc : 0 < cap) (fs : List (String × Layout))
    (ha : ∀ f ∈ fs, 0 < f.2.align) :
    (structOf cap fs).fields.Pairwise (fun g h => g.2.1 + g.2.2 ≤ h.2.1) ∧
    ∀ g ∈ (structOf cap fs).fields, g.2.1 + g.2.2 ≤ (structOf cap fs).size := by
  obtain ⟨-, h2, h3⟩ := place_spec cap hc fs ha 0
  refine ⟨h3, fun g hg => ?_⟩
  have hpos : 0 < maxAlign cap fs := by
    cases fs with
    | nil => exact Nat.one_pos
    | cons f fs =>
      have : 0 < min cap f.2.align := by have := ha f (by simp); omega
      simp only [maxAlign]; omega
  exact Nat.le_trans (h2 g hg).2 (roundUp_ge _ _ hpos).1

end Layout

example := Layout.C56_fields_disjoint 1 (by decide) [("a", Layout.screenInfo), ("b", Layout.hvmStartInfo)] (by decide +kernel)

end LinuxLoader
