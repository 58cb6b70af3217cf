import Verif.Model.Layout

/-!
# The types for which the crate implements `ByteValued`, with their nested types

`Model/Layout.lean` gives offsets and sizes of the fields of each structure; here the types of the fields are
kept, so that a structure can be followed down to the integers it is made of. All leaves are unsigned integers:
no structure of the list has a field of another kind (`bool`, `char`, enumeration, reference).
-/

namespace LinuxLoader.Types
open Layout

mutual
/-- Types of the fields in src/loader_gen/x86_64/bootparam.rs, start_info.rs, elf.rs and src/loader/pe/mod.rs:75-117:
an unsigned integer of `n` bytes, `[T; n]`, and a structure whose field alignments are capped by `cap` (1 for
`repr(C, packed)`, 16 for `repr(C)`, as in `Layout.structOf`). -/
inductive Ty where
  | int (n : Nat)
  | arr (t : Ty) (n : Nat)
  | struct (cap : Nat) (fs : Fields)
/-- The fields of a structure in src/loader_gen/x86_64/bootparam.rs, start_info.rs, elf.rs or
src/loader/pe/mod.rs:75-117, in order. -/
inductive Fields where
  | nil
  | cons (name : String) (t : Ty) (rest : Fields)
end

/-- A field in front of others, as in src/loader_gen/x86_64/bootparam.rs:237-279. -/
def field (p : String × Ty) (fs : Fields) : Fields := .cons p.1 p.2 fs

@[inherit_doc] infixr:67 " ::ₛ " => field

mutual
/-- Layout of a type by the rules of `Model/Layout.lean`; on the structures in
src/loader_gen/x86_64/bootparam.rs, start_info.rs, elf.rs, src/loader/pe/mod.rs:75-117. -/
def Ty.layout : Ty → Layout
  | .int n => ⟨n, n, []⟩
  | .arr t n => array t.layout n
  | .struct cap fs => structOf cap fs.layouts
/-- Layouts of the fields; on the structures in src/loader_gen/x86_64/bootparam.rs, start_info.rs, elf.rs,
src/loader/pe/mod.rs:75-117. -/
def Fields.layouts : Fields → List (String × Layout)
  | .nil => []
  | .cons n t rest => (n, t.layout) :: rest.layouts
end

/-- `u8`, as in src/loader_gen/x86_64/bootparam.rs:107. -/
def i8 : Ty := .int 1
/-- `u16`, as in src/loader_gen/x86_64/bootparam.rs:109. -/
def i16 : Ty := .int 2
/-- `u32`, as in src/loader_gen/x86_64/bootparam.rs:123. -/
def i32 : Ty := .int 4
/-- `u64`, as in src/loader_gen/x86_64/bootparam.rs:187. -/
def i64 : Ty := .int 8

/-- `screen_info`, src/loader_gen/x86_64/bootparam.rs:106-145. -/
def screenInfo : Ty := .struct 1 (
  ("orig_x", i8) ::ₛ ("orig_y", i8) ::ₛ ("ext_mem_k", i16) ::ₛ ("orig_video_page", i16) ::ₛ
  ("orig_video_mode", i8) ::ₛ ("orig_video_cols", i8) ::ₛ ("flags", i8) ::ₛ ("unused2", i8) ::ₛ
  ("orig_video_ega_bx", i16) ::ₛ ("unused3", i16) ::ₛ ("orig_video_lines", i8) ::ₛ
  ("orig_video_isVGA", i8) ::ₛ ("orig_video_points", i16) ::ₛ ("lfb_width", i16) ::ₛ
  ("lfb_height", i16) ::ₛ ("lfb_depth", i16) ::ₛ ("lfb_base", i32) ::ₛ ("lfb_size", i32) ::ₛ
  ("cl_magic", i16) ::ₛ ("cl_offset", i16) ::ₛ ("lfb_linelength", i16) ::ₛ ("red_size", i8) ::ₛ
  ("red_pos", i8) ::ₛ ("green_size", i8) ::ₛ ("green_pos", i8) ::ₛ ("blue_size", i8) ::ₛ
  ("blue_pos", i8) ::ₛ ("rsvd_size", i8) ::ₛ ("rsvd_pos", i8) ::ₛ ("vesapm_seg", i16) ::ₛ
  ("vesapm_off", i16) ::ₛ ("pages", i16) ::ₛ ("vesa_attributes", i16) ::ₛ ("capabilities", i32) ::ₛ
  ("ext_lfb_base", i32) ::ₛ ("_reserved", .arr i8 2) ::ₛ .nil)

/-- `apm_bios_info`, src/loader_gen/x86_64/bootparam.rs:148-160. -/
def apmBiosInfo : Ty := .struct 1 (
  ("version", i16) ::ₛ ("cseg", i16) ::ₛ ("offset", i32) ::ₛ ("cseg_16", i16) ::ₛ ("dseg", i16) ::ₛ
  ("flags", i16) ::ₛ ("cseg_len", i16) ::ₛ ("cseg_16_len", i16) ::ₛ ("dseg_len", i16) ::ₛ .nil)

/-- `ist_info`, src/loader_gen/x86_64/bootparam.rs:163-170. -/
def istInfo : Ty := .struct 1 (
  ("signature", i32) ::ₛ ("command", i32) ::ₛ ("event", i32) ::ₛ ("perf_level", i32) ::ₛ .nil)

/-- `edid_info`, src/loader_gen/x86_64/bootparam.rs:173-177. -/
def edidInfo : Ty := .struct 1 (
  ("dummy", .arr i8 128) ::ₛ .nil)

/-- `boot_e820_entry`, src/loader_gen/x86_64/bootparam.rs:186-192. -/
def bootE820Entry : Ty := .struct 1 (
  ("addr", i64) ::ₛ ("size", i64) ::ₛ ("type", i32) ::ₛ .nil)

/-- `edd_device_params`, src/loader_gen/x86_64/bootparam.rs:200-221. -/
def eddDeviceParams : Ty := .struct 1 (
  ("length", i16) ::ₛ ("info_flags", i16) ::ₛ ("num_default_cylinders", i32) ::ₛ
  ("num_default_heads", i32) ::ₛ ("sectors_per_track", i32) ::ₛ ("number_of_sectors", i64) ::ₛ
  ("bytes_per_sector", i16) ::ₛ ("dpte_ptr", i32) ::ₛ ("key", i16) ::ₛ
  ("device_path_info_length", i8) ::ₛ ("reserved2", i8) ::ₛ ("reserved3", i16) ::ₛ
  ("host_bus_type", .arr i8 4) ::ₛ ("interface_type", .arr i8 8) ::ₛ ("interface_path", .arr i8 8) ::ₛ
  ("device_path", .arr i8 16) ::ₛ ("reserved4", i8) ::ₛ ("checksum", i8) ::ₛ .nil)

/-- `edd_info`, src/loader_gen/x86_64/bootparam.rs:224-234. -/
def eddInfo : Ty := .struct 1 (
  ("device", i8) ::ₛ ("version", i8) ::ₛ ("interface_support", i16) ::ₛ
  ("legacy_max_cylinder", i16) ::ₛ ("legacy_max_head", i8) ::ₛ ("legacy_sectors_per_track", i8) ::ₛ
  ("params", eddDeviceParams) ::ₛ .nil)

/-- `setup_header`, src/loader_gen/x86_64/bootparam.rs:237-279. -/
def setupHeader : Ty := .struct 1 (
  ("setup_sects", i8) ::ₛ ("root_flags", i16) ::ₛ ("syssize", i32) ::ₛ ("ram_size", i16) ::ₛ
  ("vid_mode", i16) ::ₛ ("root_dev", i16) ::ₛ ("boot_flag", i16) ::ₛ ("jump", i16) ::ₛ
  ("header", i32) ::ₛ ("version", i16) ::ₛ ("realmode_swtch", i32) ::ₛ ("start_sys_seg", i16) ::ₛ
  ("kernel_version", i16) ::ₛ ("type_of_loader", i8) ::ₛ ("loadflags", i8) ::ₛ
  ("setup_move_size", i16) ::ₛ ("code32_start", i32) ::ₛ ("ramdisk_image", i32) ::ₛ
  ("ramdisk_size", i32) ::ₛ ("bootsect_kludge", i32) ::ₛ ("heap_end_ptr", i16) ::ₛ
  ("ext_loader_ver", i8) ::ₛ ("ext_loader_type", i8) ::ₛ ("cmd_line_ptr", i32) ::ₛ
  ("initrd_addr_max", i32) ::ₛ ("kernel_alignment", i32) ::ₛ ("relocatable_kernel", i8) ::ₛ
  ("min_alignment", i8) ::ₛ ("xloadflags", i16) ::ₛ ("cmdline_size", i32) ::ₛ
  ("hardware_subarch", i32) ::ₛ ("hardware_subarch_data", i64) ::ₛ ("payload_offset", i32) ::ₛ
  ("payload_length", i32) ::ₛ ("setup_data", i64) ::ₛ ("pref_address", i64) ::ₛ ("init_size", i32) ::ₛ
  ("handover_offset", i32) ::ₛ ("kernel_info_offset", i32) ::ₛ .nil)

/-- `sys_desc_table`, src/loader_gen/x86_64/bootparam.rs:281-286. -/
def sysDescTable : Ty := .struct 1 (
  ("length", i16) ::ₛ ("table", .arr i8 14) ::ₛ .nil)

/-- `olpc_ofw_header`, src/loader_gen/x86_64/bootparam.rs:288-295. -/
def olpcOfwHeader : Ty := .struct 1 (
  ("ofw_magic", i32) ::ₛ ("ofw_version", i32) ::ₛ ("cif_handler", i32) ::ₛ ("irq_desc_table", i32) ::ₛ .nil)

/-- `efi_info`, src/loader_gen/x86_64/bootparam.rs:297-308. -/
def efiInfo : Ty := .struct 1 (
  ("efi_loader_signature", i32) ::ₛ ("efi_systab", i32) ::ₛ ("efi_memdesc_size", i32) ::ₛ
  ("efi_memdesc_version", i32) ::ₛ ("efi_memmap", i32) ::ₛ ("efi_memmap_size", i32) ::ₛ
  ("efi_systab_hi", i32) ::ₛ ("efi_memmap_hi", i32) ::ₛ .nil)

/-- `boot_params`, src/loader_gen/x86_64/bootparam.rs:313-351. -/
def bootParams : Ty := .struct 1 (
  ("screen_info", screenInfo) ::ₛ ("apm_bios_info", apmBiosInfo) ::ₛ ("_pad2", .arr i8 4) ::ₛ
  ("tboot_addr", i64) ::ₛ ("ist_info", istInfo) ::ₛ ("acpi_rsdp_addr", i64) ::ₛ
  ("_pad3", .arr i8 8) ::ₛ ("hd0_info", .arr i8 16) ::ₛ ("hd1_info", .arr i8 16) ::ₛ
  ("sys_desc_table", sysDescTable) ::ₛ ("olpc_ofw_header", olpcOfwHeader) ::ₛ
  ("ext_ramdisk_image", i32) ::ₛ ("ext_ramdisk_size", i32) ::ₛ ("ext_cmd_line_ptr", i32) ::ₛ
  ("_pad4", .arr i8 112) ::ₛ ("cc_blob_address", i32) ::ₛ ("edid_info", edidInfo) ::ₛ
  ("efi_info", efiInfo) ::ₛ ("alt_mem_k", i32) ::ₛ ("scratch", i32) ::ₛ ("e820_entries", i8) ::ₛ
  ("eddbuf_entries", i8) ::ₛ ("edd_mbr_sig_buf_entries", i8) ::ₛ ("kbd_status", i8) ::ₛ
  ("secure_boot", i8) ::ₛ ("_pad5", .arr i8 2) ::ₛ ("sentinel", i8) ::ₛ ("_pad6", .arr i8 1) ::ₛ
  ("hdr", setupHeader) ::ₛ ("_pad7", .arr i8 36) ::ₛ ("edd_mbr_sig_buffer", .arr i32 16) ::ₛ
  ("e820_table", .arr bootE820Entry 128) ::ₛ ("_pad8", .arr i8 48) ::ₛ ("eddbuf", .arr eddInfo 6) ::ₛ
  ("_pad9", .arr i8 276) ::ₛ .nil)

/-- `hvm_start_info`, src/loader_gen/x86_64/start_info.rs:20-33. -/
def hvmStartInfo : Ty := .struct 16 (
  ("magic", i32) ::ₛ ("version", i32) ::ₛ ("flags", i32) ::ₛ ("nr_modules", i32) ::ₛ
  ("modlist_paddr", i64) ::ₛ ("cmdline_paddr", i64) ::ₛ ("rsdp_paddr", i64) ::ₛ
  ("memmap_paddr", i64) ::ₛ ("memmap_entries", i32) ::ₛ ("reserved", i32) ::ₛ .nil)

/-- `hvm_modlist_entry`, src/loader_gen/x86_64/start_info.rs:35-42. -/
def hvmModlistEntry : Ty := .struct 16 (
  ("paddr", i64) ::ₛ ("size", i64) ::ₛ ("cmdline_paddr", i64) ::ₛ ("reserved", i64) ::ₛ .nil)

/-- `hvm_memmap_table_entry`, src/loader_gen/x86_64/start_info.rs:44-51. -/
def hvmMemmapTableEntry : Ty := .struct 16 (
  ("addr", i64) ::ₛ ("size", i64) ::ₛ ("type_", i32) ::ₛ ("reserved", i32) ::ₛ .nil)

/-- `Elf64_Ehdr`, src/loader_gen/x86_64/elf.rs:645-662. -/
def elf64Ehdr : Ty := .struct 16 (
  ("e_ident", .arr i8 16) ::ₛ ("e_type", i16) ::ₛ ("e_machine", i16) ::ₛ ("e_version", i32) ::ₛ
  ("e_entry", i64) ::ₛ ("e_phoff", i64) ::ₛ ("e_shoff", i64) ::ₛ ("e_flags", i32) ::ₛ
  ("e_ehsize", i16) ::ₛ ("e_phentsize", i16) ::ₛ ("e_phnum", i16) ::ₛ ("e_shentsize", i16) ::ₛ
  ("e_shnum", i16) ::ₛ ("e_shstrndx", i16) ::ₛ .nil)

/-- `Elf64_Phdr`, src/loader_gen/x86_64/elf.rs:664-675. -/
def elf64Phdr : Ty := .struct 16 (
  ("p_type", i32) ::ₛ ("p_flags", i32) ::ₛ ("p_offset", i64) ::ₛ ("p_vaddr", i64) ::ₛ
  ("p_paddr", i64) ::ₛ ("p_filesz", i64) ::ₛ ("p_memsz", i64) ::ₛ ("p_align", i64) ::ₛ .nil)

/-- `Elf64_Nhdr`, src/loader_gen/x86_64/elf.rs:736-742. -/
def elf64Nhdr : Ty := .struct 16 (
  ("n_namesz", i32) ::ₛ ("n_descsz", i32) ::ₛ ("n_type", i32) ::ₛ .nil)

/-- `arm64_image_header`, src/loader/pe/mod.rs:75-92. -/
def arm64ImageHeader : Ty := .struct 16 (
  ("code0", i32) ::ₛ ("code1", i32) ::ₛ ("text_offset", i64) ::ₛ ("image_size", i64) ::ₛ
  ("flags", i64) ::ₛ ("res2", i64) ::ₛ ("res3", i64) ::ₛ ("res4", i64) ::ₛ ("magic", i32) ::ₛ
  ("res5", i32) ::ₛ .nil)

/-- `riscv64_image_header`, src/loader/pe/mod.rs:99-117. -/
def riscv64ImageHeader : Ty := .struct 16 (
  ("code0", i32) ::ₛ ("code1", i32) ::ₛ ("text_offset", i64) ::ₛ ("image_size", i64) ::ₛ
  ("flags", i64) ::ₛ ("version", i32) ::ₛ ("res1", i32) ::ₛ ("res2", i64) ::ₛ ("magic", i64) ::ₛ
  ("magic2", i32) ::ₛ ("res3", i32) ::ₛ .nil)

/-- The types with an `unsafe impl ByteValued`: src/loader/mod.rs:189, 194, src/loader/elf/mod.rs:30, 34, 38,
src/configurator/x86_64/pvh.rs:80, 84, 88, src/loader/pe/mod.rs:97, 122; with the layouts of `Model/Layout.lean`. -/
def byteValued : List (Ty × Layout) := [
  (setupHeader, Layout.setupHeader), (bootParams, Layout.bootParams), (elf64Ehdr, Layout.elf64Ehdr),
  (elf64Nhdr, Layout.elf64Nhdr), (elf64Phdr, Layout.elf64Phdr), (hvmStartInfo, Layout.hvmStartInfo),
  (hvmMemmapTableEntry, Layout.hvmMemmapTableEntry), (hvmModlistEntry, Layout.hvmModlistEntry),
  (arm64ImageHeader, Layout.arm64ImageHeader), (riscv64ImageHeader, Layout.riscv64ImageHeader)]

end LinuxLoader.Types
