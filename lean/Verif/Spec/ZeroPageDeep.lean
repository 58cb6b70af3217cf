import Verif.Spec.ZeroPage
import Verif.Model.Values

/-!
# The x86 zero page down to its integers

The structures inside the zero page, from the headers that the kernel exports to boot loaders
(include/uapi/linux/screen_info.h, apm_bios.h, edd.h, include/video/edid.h, arch/x86/include/uapi/asm/bootparam.h,
ist.h), written down independently of the crate's structure definitions: path, absolute offset in the zero page,
size in bytes.
-/

namespace LinuxLoader.Spec
open Types

/-- Fields of the structure `s` of the zero page at offset `base`. -/
def inPart (s : String) (base : Nat) (fs : List (String × Nat × Nat)) : List (List Step × Nat × Nat) :=
  fs.map fun f => ([.field s, .field f.1], base + f.2.1, f.2.2)

/-- The integers of the zero page outside of arrays. -/
def zeroPageInts : List (List Step × Nat × Nat) :=
  inPart "screen_info" 0x000 [("orig_x", 0x00, 1), ("orig_y", 0x01, 1), ("ext_mem_k", 0x02, 2),
    ("orig_video_page", 0x04, 2), ("orig_video_mode", 0x06, 1), ("orig_video_cols", 0x07, 1), ("flags", 0x08, 1),
    ("unused2", 0x09, 1), ("orig_video_ega_bx", 0x0a, 2), ("unused3", 0x0c, 2), ("orig_video_lines", 0x0e, 1),
    ("orig_video_isVGA", 0x0f, 1), ("orig_video_points", 0x10, 2), ("lfb_width", 0x12, 2), ("lfb_height", 0x14, 2),
    ("lfb_depth", 0x16, 2), ("lfb_base", 0x18, 4), ("lfb_size", 0x1c, 4), ("cl_magic", 0x20, 2),
    ("cl_offset", 0x22, 2), ("lfb_linelength", 0x24, 2), ("red_size", 0x26, 1), ("red_pos", 0x27, 1),
    ("green_size", 0x28, 1), ("green_pos", 0x29, 1), ("blue_size", 0x2a, 1), ("blue_pos", 0x2b, 1),
    ("rsvd_size", 0x2c, 1), ("rsvd_pos", 0x2d, 1), ("vesapm_seg", 0x2e, 2), ("vesapm_off", 0x30, 2),
    ("pages", 0x32, 2), ("vesa_attributes", 0x34, 2), ("capabilities", 0x36, 4), ("ext_lfb_base", 0x3a, 4)] ++
  inPart "apm_bios_info" 0x040 [("version", 0, 2), ("cseg", 2, 2), ("offset", 4, 4), ("cseg_16", 8, 2),
    ("dseg", 10, 2), ("flags", 12, 2), ("cseg_len", 14, 2), ("cseg_16_len", 16, 2), ("dseg_len", 18, 2)] ++
  [([.field "tboot_addr"], 0x058, 8)] ++
  inPart "ist_info" 0x060 [("signature", 0, 4), ("command", 4, 4), ("event", 8, 4), ("perf_level", 12, 4)] ++
  [([.field "acpi_rsdp_addr"], 0x070, 8)] ++
  inPart "sys_desc_table" 0x0a0 [("length", 0, 2)] ++
  inPart "olpc_ofw_header" 0x0b0 [("ofw_magic", 0, 4), ("ofw_version", 4, 4), ("cif_handler", 8, 4),
    ("irq_desc_table", 12, 4)] ++
  [([.field "ext_ramdisk_image"], 0x0c0, 4), ([.field "ext_ramdisk_size"], 0x0c4, 4),
   ([.field "ext_cmd_line_ptr"], 0x0c8, 4), ([.field "cc_blob_address"], 0x13c, 4)] ++
  inPart "efi_info" 0x1c0 [("efi_loader_signature", 0, 4), ("efi_systab", 4, 4), ("efi_memdesc_size", 8, 4),
    ("efi_memdesc_version", 12, 4), ("efi_memmap", 16, 4), ("efi_memmap_size", 20, 4), ("efi_systab_hi", 24, 4),
    ("efi_memmap_hi", 28, 4)] ++
  [([.field "alt_mem_k"], 0x1e0, 4), ([.field "scratch"], 0x1e4, 4), ([.field "e820_entries"], 0x1e8, 1),
   ([.field "eddbuf_entries"], 0x1e9, 1), ([.field "edd_mbr_sig_buf_entries"], 0x1ea, 1),
   ([.field "kbd_status"], 0x1eb, 1), ([.field "secure_boot"], 0x1ec, 1), ([.field "sentinel"], 0x1ef, 1)] ++
  setupHeaderDoc.map fun f => ([.field "hdr", .field f.1], f.2.1, f.2.2)

/-- An array of the zero page: path, number of elements, offset, size of an element, and the integers of an element
(path, offset in the element, size). -/
structure ArrayDoc where
  path : List Step
  count : Nat
  base : Nat
  stride : Nat
  ints : List (List Step × Nat × Nat)

/-- `n` bytes in a field of an element. -/
def byteField (path : List Step) (off n : Nat) : List (List Step × Nat × Nat) :=
  (List.range n).map fun j => (path ++ [.index j], off + j, 1)

/-- The arrays of the zero page. -/
def zeroPageArrays : List ArrayDoc := [
  ⟨[.field "hd0_info"], 16, 0x080, 1, [([], 0, 1)]⟩,
  ⟨[.field "hd1_info"], 16, 0x090, 1, [([], 0, 1)]⟩,
  ⟨[.field "sys_desc_table", .field "table"], 14, 0x0a2, 1, [([], 0, 1)]⟩,
  ⟨[.field "edid_info", .field "dummy"], 128, 0x140, 1, [([], 0, 1)]⟩,
  ⟨[.field "edd_mbr_sig_buffer"], 16, 0x290, 4, [([], 0, 4)]⟩,
  ⟨[.field "e820_table"], 128, 0x2d0, 20, [([.field "addr"], 0, 8), ([.field "size"], 8, 8),
    ([.field "type"], 16, 4)]⟩,
  ⟨[.field "eddbuf"], 6, 0xd00, 82, [([.field "device"], 0, 1), ([.field "version"], 1, 1),
    ([.field "interface_support"], 2, 2), ([.field "legacy_max_cylinder"], 4, 2), ([.field "legacy_max_head"], 6, 1),
    ([.field "legacy_sectors_per_track"], 7, 1)] ++
    inPart "params" 8 [("length", 0, 2), ("info_flags", 2, 2), ("num_default_cylinders", 4, 4),
      ("num_default_heads", 8, 4), ("sectors_per_track", 12, 4), ("number_of_sectors", 16, 8),
      ("bytes_per_sector", 24, 2), ("dpte_ptr", 26, 4), ("key", 30, 2), ("device_path_info_length", 32, 1),
      ("reserved2", 33, 1), ("reserved3", 34, 2), ("reserved4", 72, 1), ("checksum", 73, 1)] ++
    byteField [.field "params", .field "host_bus_type"] (8 + 36) 4 ++
    byteField [.field "params", .field "interface_type"] (8 + 40) 8 ++
    byteField [.field "params", .field "interface_path"] (8 + 48) 8 ++
    byteField [.field "params", .field "device_path"] (8 + 56) 16⟩]

/-- The kernel looks for the integer of the path `p` in the `n` bytes at offset `o` of the zero page. -/
def ZeroPageInt (p : List Step) (o n : Nat) : Prop :=
  (p, o, n) ∈ zeroPageInts ∨ ∃ d ∈ zeroPageArrays, ∃ i, i < d.count ∧ ∃ e ∈ d.ints,
    p = d.path ++ .index i :: e.1 ∧ o = d.base + d.stride * i + e.2.1 ∧ n = e.2.2

end LinuxLoader.Spec
