import Verif.Model.Basic

/-!
# Memory layout of the fixed-layout structures, src/loader_gen/x86_64

The layout rules of `repr(C)` and `repr(C, packed)` (Rust reference, "Type layout"), and the structure
definitions of the crate transcribed field by field.
-/

namespace LinuxLoader.Layout

/-- Size, alignment and fields (name, offset, size) of a type. Of the structures in
src/loader_gen/x86_64/bootparam.rs, start_info.rs, elf.rs. -/
structure Layout where
  size : Nat
  align : Nat
  fields : List (String × Nat × Nat)
deriving DecidableEq, Repr

/-- Round `n` up to a multiple of `a`. Used for the structures in src/loader_gen/x86_64/bootparam.rs,
start_info.rs, elf.rs. -/
def roundUp (n a : Nat) : Nat := (n + a - 1) / a * a

/-- Integer types on x86_64. Field types in src/loader_gen/x86_64/bootparam.rs, start_info.rs, elf.rs.
-/
def u8 : Layout := ⟨1, 1, []⟩
/-- `u16`. Field types in src/loader_gen/x86_64/bootparam.rs, start_info.rs, elf.rs. -/
def u16 : Layout := ⟨2, 2, []⟩
/-- `u32`. Field types in src/loader_gen/x86_64/bootparam.rs, start_info.rs, elf.rs. -/
def u32 : Layout := ⟨4, 4, []⟩
/-- `u64`. Field types in src/loader_gen/x86_64/bootparam.rs, start_info.rs, elf.rs. -/
def u64 : Layout := ⟨8, 8, []⟩

/-- `[T; n]`. Field types in src/loader_gen/x86_64/bootparam.rs, start_info.rs, elf.rs. -/
def array (t : Layout) (n : Nat) : Layout := ⟨t.size * n, t.align, []⟩

/-- Field placement: starting at offset `off`, each field is put at the next offset which is a
multiple of its alignment capped by `cap` (`packed` caps alignment at 1). Result: fields and the end.
Used for the structures in src/loader_gen/x86_64/bootparam.rs, start_info.rs, elf.rs. -/
def place (cap : Nat) : Nat → List (String × Layout) → List (String × Nat × Nat) × Nat
  | off, [] => ([], off)
  | off, (n, t) :: fs =>
    let o := roundUp off (min cap t.align)
    ((n, o, t.size) :: (place cap (o + t.size) fs).1, (place cap (o + t.size) fs).2)

/-- Maximal (capped) alignment of the fields, at least 1. Used for the structures in
src/loader_gen/x86_64/bootparam.rs, start_info.rs, elf.rs. -/
def maxAlign (cap : Nat) : List (String × Layout) → Nat
  | [] => 1
  | (_, t) :: fs => max (min cap t.align) (maxAlign cap fs)

/-- A structure whose field alignments are capped by `cap`. Used for the structures in
src/loader_gen/x86_64/bootparam.rs, start_info.rs, elf.rs. -/
def structOf (cap : Nat) (fs : List (String × Layout)) : Layout :=
  ⟨roundUp (place cap 0 fs).2 (maxAlign cap fs), maxAlign cap fs, (place cap 0 fs).1⟩

/-- `#[repr(C)]` (alignments on x86_64 are at most 16). On the structures in
src/loader_gen/x86_64/bootparam.rs, start_info.rs, elf.rs. -/
def reprC (fs : List (String × Layout)) : Layout := structOf 16 fs

/-- `#[repr(C, packed)]`. On the structures in src/loader_gen/x86_64/bootparam.rs. -/
def packed (fs : List (String × Layout)) : Layout := structOf 1 fs

/-- Offset of a field. Of the structures in src/loader_gen/x86_64/bootparam.rs, start_info.rs, elf.rs.
-/
def Layout.offset (l : Layout) (name : String) : Option Nat := (l.fields.lookup name).map (·.1)

/-- `screen_info`, src/loader_gen/x86_64/bootparam.rs:106-145. -/
def screenInfo : Layout := packed [
  ("orig_x", u8), ("orig_y", u8), ("ext_mem_k", u16), ("orig_video_page", u16),
  ("orig_video_mode", u8), ("orig_video_cols", u8), ("flags", u8), ("unused2", u8),
  ("orig_video_ega_bx", u16), ("unused3", u16), ("orig_video_lines", u8),
  ("orig_video_isVGA", u8), ("orig_video_points", u16), ("lfb_width", u16), ("lfb_height", u16),
  ("lfb_depth", u16), ("lfb_base", u32), ("lfb_size", u32), ("cl_magic", u16), ("cl_offset", u16),
  ("lfb_linelength", u16), ("red_size", u8), ("red_pos", u8), ("green_size", u8),
  ("green_pos", u8), ("blue_size", u8), ("blue_pos", u8), ("rsvd_size", u8), ("rsvd_pos", u8),
  ("vesapm_seg", u16), ("vesapm_off", u16), ("pages", u16), ("vesa_attributes", u16),
  ("capabilities", u32), ("ext_lfb_base", u32), ("_reserved", array u8 2)]

/-- `apm_bios_info`, src/loader_gen/x86_64/bootparam.rs:148-160. -/
def apmBiosInfo : Layout := packed [
  ("version", u16), ("cseg", u16), ("offset", u32), ("cseg_16", u16), ("dseg", u16),
  ("flags", u16), ("cseg_len", u16), ("cseg_16_len", u16), ("dseg_len", u16)]

/-- `ist_info`, src/loader_gen/x86_64/bootparam.rs:163-170. -/
def istInfo : Layout := packed [
  ("signature", u32), ("command", u32), ("event", u32), ("perf_level", u32)]

/-- `edid_info`, src/loader_gen/x86_64/bootparam.rs:173-177. -/
def edidInfo : Layout := packed [
  ("dummy", array u8 128)]

/-- `boot_e820_entry`, src/loader_gen/x86_64/bootparam.rs:186-192. -/
def bootE820Entry : Layout := packed [
  ("addr", u64), ("size", u64), ("type", u32)]

/-- `edd_device_params`, src/loader_gen/x86_64/bootparam.rs:200-221. -/
def eddDeviceParams : Layout := packed [
  ("length", u16), ("info_flags", u16), ("num_default_cylinders", u32),
  ("num_default_heads", u32), ("sectors_per_track", u32), ("number_of_sectors", u64),
  ("bytes_per_sector", u16), ("dpte_ptr", u32), ("key", u16), ("device_path_info_length", u8),
  ("reserved2", u8), ("reserved3", u16), ("host_bus_type", array u8 4),
  ("interface_type", array u8 8), ("interface_path", array u8 8), ("device_path", array u8 16),
  ("reserved4", u8), ("checksum", u8)]

/-- `edd_info`, src/loader_gen/x86_64/bootparam.rs:224-234. -/
def eddInfo : Layout := packed [
  ("device", u8), ("version", u8), ("interface_support", u16), ("legacy_max_cylinder", u16),
  ("legacy_max_head", u8), ("legacy_sectors_per_track", u8), ("params", eddDeviceParams)]

/-- `setup_header`, src/loader_gen/x86_64/bootparam.rs:237-279. -/
def setupHeader : Layout := packed [
  ("setup_sects", u8), ("root_flags", u16), ("syssize", u32), ("ram_size", u16),
  ("vid_mode", u16), ("root_dev", u16), ("boot_flag", u16), ("jump", u16), ("header", u32),
  ("version", u16), ("realmode_swtch", u32), ("start_sys_seg", u16), ("kernel_version", u16),
  ("type_of_loader", u8), ("loadflags", u8), ("setup_move_size", u16), ("code32_start", u32),
  ("ramdisk_image", u32), ("ramdisk_size", u32), ("bootsect_kludge", u32), ("heap_end_ptr", u16),
  ("ext_loader_ver", u8), ("ext_loader_type", u8), ("cmd_line_ptr", u32),
  ("initrd_addr_max", u32), ("kernel_alignment", u32), ("relocatable_kernel", u8),
  ("min_alignment", u8), ("xloadflags", u16), ("cmdline_size", u32), ("hardware_subarch", u32),
  ("hardware_subarch_data", u64), ("payload_offset", u32), ("payload_length", u32),
  ("setup_data", u64), ("pref_address", u64), ("init_size", u32), ("handover_offset", u32),
  ("kernel_info_offset", u32)]

/-- `sys_desc_table`, src/loader_gen/x86_64/bootparam.rs:281-286. -/
def sysDescTable : Layout := packed [
  ("length", u16), ("table", array u8 14)]

/-- `olpc_ofw_header`, src/loader_gen/x86_64/bootparam.rs:288-295. -/
def olpcOfwHeader : Layout := packed [
  ("ofw_magic", u32), ("ofw_version", u32), ("cif_handler", u32), ("irq_desc_table", u32)]

/-- `efi_info`, src/loader_gen/x86_64/bootparam.rs:297-308. -/
def efiInfo : Layout := packed [
  ("efi_loader_signature", u32), ("efi_systab", u32), ("efi_memdesc_size", u32),
  ("efi_memdesc_version", u32), ("efi_memmap", u32), ("efi_memmap_size", u32),
  ("efi_systab_hi", u32), ("efi_memmap_hi", u32)]

/-- `boot_params`, src/loader_gen/x86_64/bootparam.rs:313-351. -/
def bootParams : Layout := packed [
  ("screen_info", screenInfo), ("apm_bios_info", apmBiosInfo), ("_pad2", array u8 4),
  ("tboot_addr", u64), ("ist_info", istInfo), ("acpi_rsdp_addr", u64), ("_pad3", array u8 8),
  ("hd0_info", array u8 16), ("hd1_info", array u8 16), ("sys_desc_table", sysDescTable),
  ("olpc_ofw_header", olpcOfwHeader), ("ext_ramdisk_image", u32), ("ext_ramdisk_size", u32),
  ("ext_cmd_line_ptr", u32), ("_pad4", array u8 112), ("cc_blob_address", u32),
  ("edid_info", edidInfo), ("efi_info", efiInfo), ("alt_mem_k", u32), ("scratch", u32),
  ("e820_entries", u8), ("eddbuf_entries", u8), ("edd_mbr_sig_buf_entries", u8),
  ("kbd_status", u8), ("secure_boot", u8), ("_pad5", array u8 2), ("sentinel", u8),
  ("_pad6", array u8 1), ("hdr", setupHeader), ("_pad7", array u8 36),
  ("edd_mbr_sig_buffer", array u32 16), ("e820_table", array bootE820Entry 128),
  ("_pad8", array u8 48), ("eddbuf", array eddInfo 6), ("_pad9", array u8 276)]

/-- `hvm_start_info`, src/loader_gen/x86_64/start_info.rs:20-33. -/
def hvmStartInfo : Layout := reprC [
  ("magic", u32), ("version", u32), ("flags", u32), ("nr_modules", u32), ("modlist_paddr", u64),
  ("cmdline_paddr", u64), ("rsdp_paddr", u64), ("memmap_paddr", u64), ("memmap_entries", u32),
  ("reserved", u32)]

/-- `hvm_modlist_entry`, src/loader_gen/x86_64/start_info.rs:35-42. -/
def hvmModlistEntry : Layout := reprC [
  ("paddr", u64), ("size", u64), ("cmdline_paddr", u64), ("reserved", u64)]

/-- `hvm_memmap_table_entry`, src/loader_gen/x86_64/start_info.rs:44-51. -/
def hvmMemmapTableEntry : Layout := reprC [
  ("addr", u64), ("size", u64), ("type_", u32), ("reserved", u32)]

/-- `Elf32_Nhdr`, src/loader_gen/x86_64/elf.rs:614-620. -/
def elf32Nhdr : Layout := reprC [
  ("n_namesz", u32), ("n_descsz", u32), ("n_type", u32)]

/-- `Elf64_Ehdr`, src/loader_gen/x86_64/elf.rs:645-662. -/
def elf64Ehdr : Layout := reprC [
  ("e_ident", array u8 16), ("e_type", u16), ("e_machine", u16), ("e_version", u32),
  ("e_entry", u64), ("e_phoff", u64), ("e_shoff", u64), ("e_flags", u32), ("e_ehsize", u16),
  ("e_phentsize", u16), ("e_phnum", u16), ("e_shentsize", u16), ("e_shnum", u16),
  ("e_shstrndx", u16)]

/-- `Elf64_Phdr`, src/loader_gen/x86_64/elf.rs:664-675. -/
def elf64Phdr : Layout := reprC [
  ("p_type", u32), ("p_flags", u32), ("p_offset", u64), ("p_vaddr", u64), ("p_paddr", u64),
  ("p_filesz", u64), ("p_memsz", u64), ("p_align", u64)]

/-- `Elf64_Nhdr`, src/loader_gen/x86_64/elf.rs:736-742. -/
def elf64Nhdr : Layout := reprC [
  ("n_namesz", u32), ("n_descsz", u32), ("n_type", u32)]

/-- `#[repr(C)] union`: every field at offset 0 (Rust reference, "Type layout"); used for
src/loader_gen/x86_64/elf.rs:600-603, 722-725. -/
def union (fs : List (String × Layout)) : Layout :=
  ⟨roundUp (fs.foldl (fun n f => max n f.2.size) 0) (maxAlign 16 fs), maxAlign 16 fs,
    fs.map fun f => (f.1, 0, f.2.size)⟩

/-- `Elf32_Ehdr`, src/loader_gen/x86_64/elf.rs:523-540. -/
def elf32Ehdr : Layout := reprC [
  ("e_ident", array u8 16), ("e_type", u16), ("e_machine", u16), ("e_version", u32),
  ("e_entry", u32), ("e_phoff", u32), ("e_shoff", u32), ("e_flags", u32), ("e_ehsize", u16),
  ("e_phentsize", u16), ("e_phnum", u16), ("e_shentsize", u16), ("e_shnum", u16),
  ("e_shstrndx", u16)]

/-- `Elf32_Phdr`, src/loader_gen/x86_64/elf.rs:542-553. -/
def elf32Phdr : Layout := reprC [
  ("p_type", u32), ("p_offset", u32), ("p_vaddr", u32), ("p_paddr", u32), ("p_filesz", u32),
  ("p_memsz", u32), ("p_flags", u32), ("p_align", u32)]

/-- `Elf32_Shdr`, src/loader_gen/x86_64/elf.rs:555-568. -/
def elf32Shdr : Layout := reprC [
  ("sh_name", u32), ("sh_type", u32), ("sh_flags", u32), ("sh_addr", u32), ("sh_offset", u32),
  ("sh_size", u32), ("sh_link", u32), ("sh_info", u32), ("sh_addralign", u32),
  ("sh_entsize", u32)]

/-- `Elf32_Sym`, src/loader_gen/x86_64/elf.rs:570-579. -/
def elf32Sym : Layout := reprC [
  ("st_name", u32), ("st_value", u32), ("st_size", u32), ("st_info", u8), ("st_other", u8),
  ("st_shndx", u16)]

/-- `Elf32_Rel`, src/loader_gen/x86_64/elf.rs:581-586. -/
def elf32Rel : Layout := reprC [
  ("r_offset", u32), ("r_info", u32)]

/-- `Elf32_Rela`, src/loader_gen/x86_64/elf.rs:588-594. -/
def elf32Rela : Layout := reprC [
  ("r_offset", u32), ("r_info", u32), ("r_addend", u32)]

/-- `Elf32_Dyn_d_un`, src/loader_gen/x86_64/elf.rs:598-603. -/
def elf32DynUn : Layout := union [
  ("d_val", u32), ("d_ptr", u32)]

/-- `Elf32_Dyn`, src/loader_gen/x86_64/elf.rs:607-612. -/
def elf32Dyn : Layout := reprC [
  ("d_tag", u32), ("d_un", elf32DynUn)]

/-- `Elf32_Verdef`, src/loader_gen/x86_64/elf.rs:622-632. -/
def elf32Verdef : Layout := reprC [
  ("vd_version", u16), ("vd_flags", u16), ("vd_ndx", u16), ("vd_cnt", u16), ("vd_hash", u32),
  ("vd_aux", u32), ("vd_next", u32)]

/-- `Elf32_Verdaux`, src/loader_gen/x86_64/elf.rs:634-639. -/
def elf32Verdaux : Layout := reprC [
  ("vda_name", u32), ("vda_next", u32)]

/-- `Elf64_Shdr`, src/loader_gen/x86_64/elf.rs:677-690. -/
def elf64Shdr : Layout := reprC [
  ("sh_name", u32), ("sh_type", u32), ("sh_flags", u64), ("sh_addr", u64), ("sh_offset", u64),
  ("sh_size", u64), ("sh_link", u32), ("sh_info", u32), ("sh_addralign", u64),
  ("sh_entsize", u64)]

/-- `Elf64_Sym`, src/loader_gen/x86_64/elf.rs:692-701. -/
def elf64Sym : Layout := reprC [
  ("st_name", u32), ("st_info", u8), ("st_other", u8), ("st_shndx", u16), ("st_value", u64),
  ("st_size", u64)]

/-- `Elf64_Rel`, src/loader_gen/x86_64/elf.rs:703-708. -/
def elf64Rel : Layout := reprC [
  ("r_offset", u64), ("r_info", u64)]

/-- `Elf64_Rela`, src/loader_gen/x86_64/elf.rs:710-716. -/
def elf64Rela : Layout := reprC [
  ("r_offset", u64), ("r_info", u64), ("r_addend", u64)]

/-- `Elf64_Dyn_d_un`, src/loader_gen/x86_64/elf.rs:720-725. -/
def elf64DynUn : Layout := union [
  ("d_val", u64), ("d_ptr", u64)]

/-- `Elf64_Dyn`, src/loader_gen/x86_64/elf.rs:729-734. -/
def elf64Dyn : Layout := reprC [
  ("d_tag", u64), ("d_un", elf64DynUn)]

/-- `Elf64_Verdef`, src/loader_gen/x86_64/elf.rs:744-754. -/
def elf64Verdef : Layout := reprC [
  ("vd_version", u16), ("vd_flags", u16), ("vd_ndx", u16), ("vd_cnt", u16), ("vd_hash", u32),
  ("vd_aux", u32), ("vd_next", u32)]

/-- `Elf64_Verdaux`, src/loader_gen/x86_64/elf.rs:756-761. -/
def elf64Verdaux : Layout := reprC [
  ("vda_name", u32), ("vda_next", u32)]

/-- `arm64_image_header`, src/loader/pe/mod.rs:75-92. -/
def arm64ImageHeader : Layout := reprC [
  ("code0", u32), ("code1", u32), ("text_offset", u64), ("image_size", u64), ("flags", u64),
  ("res2", u64), ("res3", u64), ("res4", u64), ("magic", u32), ("res5", u32)]

/-- `riscv64_image_header`, src/loader/pe/mod.rs:99-117. -/
def riscv64ImageHeader : Layout := reprC [
  ("code0", u32), ("code1", u32), ("text_offset", u64), ("image_size", u64), ("flags", u64),
  ("version", u32), ("res1", u32), ("res2", u64), ("magic", u64), ("magic2", u32), ("res3", u32)]

end LinuxLoader.Layout
