import Verif.Model.BzImage
import Verif.Model.Pe
import Verif.Props.Structs

/-!
# C56, continued: the remaining exported layouts, and the decoders used by the loaders

The offsets in the statements are those of the System V gABI (ELF) and of
Documentation/arch/arm64/booting.rst and Documentation/arch/riscv/boot-image-header.rst.
-/

namespace LinuxLoader
namespace Layout

/-- **C56.** The exported 32-bit ELF structures. -/
theorem C56_elf32 :
    Documented elf32Ehdr 52 [("e_ident", 0), ("e_type", 16), ("e_machine", 18), ("e_version", 20),
      ("e_entry", 24), ("e_phoff", 28), ("e_shoff", 32), ("e_flags", 36), ("e_ehsize", 40),
      ("e_phentsize", 42), ("e_phnum", 44), ("e_shentsize", 46), ("e_shnum", 48),
      ("e_shstrndx", 50)] ∧
    Documented elf32Phdr 32 [("p_type", 0), ("p_offset", 4), ("p_vaddr", 8), ("p_paddr", 12),
      ("p_filesz", 16), ("p_memsz", 20), ("p_flags", 24), ("p_align", 28)] ∧
    Documented elf32Shdr 40 [("sh_name", 0), ("sh_type", 4), ("sh_flags", 8), ("sh_addr", 12),
      ("sh_offset", 16), ("sh_size", 20), ("sh_link", 24), ("sh_info", 28), ("sh_addralign", 32),
      ("sh_entsize", 36)] ∧
    Documented elf32Sym 16 [("st_name", 0), ("st_value", 4), ("st_size", 8), ("st_info", 12),
      ("st_other", 13), ("st_shndx", 14)] ∧
    Documented elf32Rel 8 [("r_offset", 0), ("r_info", 4)] ∧
    Documented elf32Rela 12 [("r_offset", 0), ("r_info", 4), ("r_addend", 8)] ∧
    Documented elf32Dyn 8 [("d_tag", 0), ("d_un", 4)] ∧
    (elf32DynUn.size = 4 ∧ elf32DynUn.fields = [("d_val", 0, 4), ("d_ptr", 0, 4)]) ∧
    Documented elf32Nhdr 12 [("n_namesz", 0), ("n_descsz", 4), ("n_type", 8)] ∧
    Documented elf32Verdef 20 [("vd_version", 0), ("vd_flags", 2), ("vd_ndx", 4), ("vd_cnt", 6),
      ("vd_hash", 8), ("vd_aux", 12), ("vd_next", 16)] ∧
    Documented elf32Verdaux 8 [("vda_name", 0), ("vda_next", 4)] := by decide +kernel

/-- **C56.** The remaining exported 64-bit ELF structures. -/
theorem C56_elf64 :
    Documented elf64Shdr 64 [("sh_name", 0), ("sh_type", 4), ("sh_flags", 8), ("sh_addr", 16),
      ("sh_offset", 24), ("sh_size", 32), ("sh_link", 40), ("sh_info", 44), ("sh_addralign", 48),
      ("sh_entsize", 56)] ∧
    Documented elf64Sym 24 [("st_name", 0), ("st_info", 4), ("st_other", 5), ("st_shndx", 6),
      ("st_value", 8), ("st_size", 16)] ∧
    Documented elf64Rel 16 [("r_offset", 0), ("r_info", 8)] ∧
    Documented elf64Rela 24 [("r_offset", 0), ("r_info", 8), ("r_addend", 16)] ∧
    Documented elf64Dyn 16 [("d_tag", 0), ("d_un", 8)] ∧
    (elf64DynUn.size = 8 ∧ elf64DynUn.fields = [("d_val", 0, 8), ("d_ptr", 0, 8)]) ∧
    Documented elf64Verdef 20 [("vd_version", 0), ("vd_flags", 2), ("vd_ndx", 4), ("vd_cnt", 6),
      ("vd_hash", 8), ("vd_aux", 12), ("vd_next", 16)] ∧
    Documented elf64Verdaux 8 [("vda_name", 0), ("vda_next", 4)] := by decide +kernel

/-- **C56.** The `Image` headers of arm64 and riscv64. -/
theorem C56_image_headers :
    Documented arm64ImageHeader 64 [("code0", 0), ("code1", 4), ("text_offset", 8),
      ("image_size", 16), ("flags", 24), ("res2", 32), ("res3", 40), ("res4", 48), ("magic", 56),
      ("res5", 60)] ∧
    Documented riscv64ImageHeader 64 [("code0", 0), ("code1", 4), ("text_offset", 8),
      ("image_size", 16), ("flags", 24), ("version", 32), ("res1", 36), ("res2", 40),
      ("magic", 48), ("magic2", 56), ("res3", 60)] := by decide +kernel

/-- **C56.** The structures inside the zero page, as in the headers that the kernel exports to boot loaders
(include/uapi/linux/screen_info.h, apm_bios.h, edd.h, arch/x86/include/uapi/asm/bootparam.h, ist.h). -/
theorem C56_zero_page_parts :
    Documented screenInfo 64 [("orig_x", 0x00), ("orig_y", 0x01), ("ext_mem_k", 0x02), ("orig_video_page", 0x04),
      ("orig_video_mode", 0x06), ("orig_video_cols", 0x07), ("flags", 0x08), ("unused2", 0x09),
      ("orig_video_ega_bx", 0x0a), ("unused3", 0x0c), ("orig_video_lines", 0x0e), ("orig_video_isVGA", 0x0f),
      ("orig_video_points", 0x10), ("lfb_width", 0x12), ("lfb_height", 0x14), ("lfb_depth", 0x16), ("lfb_base", 0x18),
      ("lfb_size", 0x1c), ("cl_magic", 0x20), ("cl_offset", 0x22), ("lfb_linelength", 0x24), ("red_size", 0x26),
      ("red_pos", 0x27), ("green_size", 0x28), ("green_pos", 0x29), ("blue_size", 0x2a), ("blue_pos", 0x2b),
      ("rsvd_size", 0x2c), ("rsvd_pos", 0x2d), ("vesapm_seg", 0x2e), ("vesapm_off", 0x30), ("pages", 0x32),
      ("vesa_attributes", 0x34), ("capabilities", 0x36), ("ext_lfb_base", 0x3a), ("_reserved", 0x3e)] ∧
    Documented apmBiosInfo 20 [("version", 0), ("cseg", 2), ("offset", 4), ("cseg_16", 8), ("dseg", 10), ("flags", 12),
      ("cseg_len", 14), ("cseg_16_len", 16), ("dseg_len", 18)] ∧
    Documented istInfo 16 [("signature", 0), ("command", 4), ("event", 8), ("perf_level", 12)] ∧
    Documented edidInfo 128 [("dummy", 0)] ∧
    Documented bootE820Entry 20 [("addr", 0), ("size", 8), ("type", 16)] ∧
    Documented eddDeviceParams 74 [("length", 0), ("info_flags", 2), ("num_default_cylinders", 4),
      ("num_default_heads", 8), ("sectors_per_track", 12), ("number_of_sectors", 16), ("bytes_per_sector", 24),
      ("dpte_ptr", 26), ("key", 30), ("device_path_info_length", 32), ("reserved2", 33), ("reserved3", 34),
      ("host_bus_type", 36), ("interface_type", 40), ("interface_path", 48), ("device_path", 56), ("reserved4", 72),
      ("checksum", 73)] ∧
    Documented eddInfo 82 [("device", 0), ("version", 1), ("interface_support", 2), ("legacy_max_cylinder", 4),
      ("legacy_max_head", 6), ("legacy_sectors_per_track", 7), ("params", 8)] ∧
    Documented sysDescTable 16 [("length", 0), ("table", 2)] ∧
    Documented olpcOfwHeader 16 [("ofw_magic", 0), ("ofw_version", 4), ("cif_handler", 8), ("irq_desc_table", 12)] ∧
    Documented efiInfo 32 [("efi_loader_signature", 0), ("efi_systab", 4), ("efi_memdesc_size", 8),
      ("efi_memdesc_version", 12), ("efi_memmap", 16), ("efi_memmap_size", 20), ("efi_systab_hi", 24),
      ("efi_memmap_hi", 28)] := by decide +kernel

/-- The little-endian value of the field `name` in the memory image `b` of a structure with layout
`l`. -/
def Layout.read (l : Layout) (b : List UInt8) (name : String) : Option Nat :=
  (l.fields.lookup name).map fun p => leField b p.1 p.2

private theorem read_eq {l : Layout} {b : List UInt8} {name : String} {o n : Nat}
    (h : l.fields.lookup name = some (o, n)) : l.read b name = some (leField b o n) := by
  unfold Layout.read; rw [h]; rfl

/-- **C56.** What `Elf::load` reads from the ELF header, a program header and a note header are the
fields of these names. -/
theorem C56_elf_decoders (b : List UInt8) :
    elf64Ehdr.read b "e_entry" = some (ehEntry b) ∧
    elf64Ehdr.read b "e_phoff" = some (ehPhoff b) ∧
    elf64Ehdr.read b "e_phentsize" = some (ehPhentsize b) ∧
    elf64Ehdr.read b "e_phnum" = some (ehPhnum b) ∧
    elf64Phdr.read b "p_type" = some (Phdr.ofBytes b).type ∧
    elf64Phdr.read b "p_offset" = some (Phdr.ofBytes b).offset ∧
    elf64Phdr.read b "p_paddr" = some (Phdr.ofBytes b).paddr ∧
    elf64Phdr.read b "p_filesz" = some (Phdr.ofBytes b).filesz ∧
    elf64Phdr.read b "p_memsz" = some (Phdr.ofBytes b).memsz ∧
    elf64Nhdr.read b "n_namesz" = some (leField b 0 4) ∧
    elf64Nhdr.read b "n_descsz" = some (leField b 4 4) ∧
    elf64Nhdr.read b "n_type" = some (leField b 8 4) := by
  refine ⟨?_, ?_, ?_, ?_, ?_, ?_, ?_, ?_, ?_, ?_, ?_, ?_⟩ <;> exact read_eq (by decide +kernel)

/-- **C56.** What `BzImage::load` reads from the setup header are the fields of these names. -/
theorem C56_bzimage_decoders (b : List UInt8) :
    setupHeader.read b "setup_sects" = some (shSetupSects b) ∧
    setupHeader.read b "header" = some (shMagic b) ∧
    setupHeader.read b "version" = some (shVersion b) ∧
    setupHeader.read b "loadflags" = some (shLoadflags b) ∧
    setupHeader.read b "code32_start" = some (shCode32 b) := by
  refine ⟨?_, ?_, ?_, ?_, ?_⟩ <;> exact read_eq (by decide +kernel)

/-- **C56.** What `PE::load` reads from the image header are the fields of these names. -/
theorem C56_pe_decoders (b : List UInt8) :
    arm64ImageHeader.read b "text_offset" = some (peTextField b) ∧
    arm64ImageHeader.read b "image_size" = some (peImageSize b) ∧
    arm64ImageHeader.read b "magic" = some (peMagic b) ∧
    riscv64ImageHeader.read b "text_offset" = some (peTextField b) ∧
    riscv64ImageHeader.read b "magic2" = some (peMagic b) := by
  refine ⟨?_, ?_, ?_, ?_, ?_⟩ <;> exact read_eq (by decide +kernel)

/-- The magic numbers are the ASCII strings of the documentation: `ARM\x64` and `RSC\x05`. -/
example : PeArch.arm64.magic = leNat [0x41, 0x52, 0x4d, 0x64] ∧
    PeArch.riscv64.magic = leNat [0x52, 0x53, 0x43, 0x05] := by decide +kernel

end Layout
end LinuxLoader
