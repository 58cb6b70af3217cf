import Verif.Spec.StartInfo

/-!
# The x86 zero page as the kernel sees it

Offsets and sizes from Documentation/arch/x86/zero-page.rst and boot.rst of the Linux kernel, written
down independently of the crate's structure definitions.
-/

namespace LinuxLoader.Spec

/-- Documentation/arch/x86/zero-page.rst: field, offset, size. -/
def zeroPageDoc : List (String × Nat × Nat) :=
  [("screen_info", 0x000, 0x40), ("apm_bios_info", 0x040, 0x14), ("tboot_addr", 0x058, 8),
   ("ist_info", 0x060, 0x10), ("acpi_rsdp_addr", 0x070, 8), ("hd0_info", 0x080, 0x10),
   ("hd1_info", 0x090, 0x10), ("sys_desc_table", 0x0a0, 0x10), ("olpc_ofw_header", 0x0b0, 0x10),
   ("ext_ramdisk_image", 0x0c0, 4), ("ext_ramdisk_size", 0x0c4, 4), ("ext_cmd_line_ptr", 0x0c8, 4),
   ("cc_blob_address", 0x13c, 4), ("edid_info", 0x140, 0x80), ("efi_info", 0x1c0, 0x20),
   ("alt_mem_k", 0x1e0, 4), ("scratch", 0x1e4, 4), ("e820_entries", 0x1e8, 1),
   ("eddbuf_entries", 0x1e9, 1), ("edd_mbr_sig_buf_entries", 0x1ea, 1), ("kbd_status", 0x1eb, 1),
   ("secure_boot", 0x1ec, 1), ("sentinel", 0x1ef, 1), ("hdr", 0x1f1, 123),
   ("edd_mbr_sig_buffer", 0x290, 0x40), ("e820_table", 0x2d0, 0xa00), ("eddbuf", 0xd00, 0x1ec)]

/-- Documentation/arch/x86/boot.rst: setup header field, offset in the zero page, size. -/
def setupHeaderDoc : List (String × Nat × Nat) :=
  [("setup_sects", 0x1f1, 1), ("root_flags", 0x1f2, 2), ("syssize", 0x1f4, 4), ("ram_size", 0x1f8, 2),
   ("vid_mode", 0x1fa, 2), ("root_dev", 0x1fc, 2), ("boot_flag", 0x1fe, 2), ("jump", 0x200, 2),
   ("header", 0x202, 4), ("version", 0x206, 2), ("realmode_swtch", 0x208, 4),
   ("start_sys_seg", 0x20c, 2), ("kernel_version", 0x20e, 2), ("type_of_loader", 0x210, 1),
   ("loadflags", 0x211, 1), ("setup_move_size", 0x212, 2), ("code32_start", 0x214, 4),
   ("ramdisk_image", 0x218, 4), ("ramdisk_size", 0x21c, 4), ("bootsect_kludge", 0x220, 4),
   ("heap_end_ptr", 0x224, 2), ("ext_loader_ver", 0x226, 1), ("ext_loader_type", 0x227, 1),
   ("cmd_line_ptr", 0x228, 4), ("initrd_addr_max", 0x22c, 4), ("kernel_alignment", 0x230, 4),
   ("relocatable_kernel", 0x234, 1), ("min_alignment", 0x235, 1), ("xloadflags", 0x236, 2),
   ("cmdline_size", 0x238, 4), ("hardware_subarch", 0x23c, 4), ("hardware_subarch_data", 0x240, 8),
   ("payload_offset", 0x248, 4), ("payload_length", 0x24c, 4), ("setup_data", 0x250, 8),
   ("pref_address", 0x258, 8), ("init_size", 0x260, 4), ("handover_offset", 0x264, 4),
   ("kernel_info_offset", 0x268, 4)]

/-- One entry of the BIOS memory map. -/
structure E820 where
  addr : UInt64
  size : UInt64
  type : UInt32

/-- A kernel reading the `i`-th entry of the memory map of the zero page at `a` sees `e`: entries of
20 bytes at 0x2d0. -/
structure E820At (f : Nat → UInt8) (a i : Nat) (e : E820) : Prop where
  addr : readLE f (a + 0x2d0 + 20 * i) 8 = e.addr.toNat
  size : readLE f (a + 0x2d0 + 20 * i + 8) 8 = e.size.toNat
  type : readLE f (a + 0x2d0 + 20 * i + 16) 4 = e.type.toNat

end LinuxLoader.Spec
