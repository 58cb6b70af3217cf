import Verif.Spec.ZeroPageDeep
import Verif.Spec.Elf
import Verif.Spec.Build

/-!
# Documented places of the integers in the exported headers

From Documentation/arch/arm64/booting.rst, Documentation/arch/riscv/boot-image-header.rst, the System V gABI and
include/xen/interface/hvm/start_info.h: name, offset, size in bytes.
-/

namespace LinuxLoader.Spec
open Types

/-- Integers that are fields of the structure itself. -/
def flat (fs : List (String × Nat × Nat)) : List (List Step × Nat × Nat) :=
  fs.map fun f => ([.field f.1], f.2.1, f.2.2)

/-- The ELF64 file header, without `e_ident`. -/
def ehdrDoc : List (String × Nat × Nat) := [("e_type", 16, 2), ("e_machine", 18, 2), ("e_version", 20, 4),
  ("e_entry", 24, 8), ("e_phoff", 32, 8), ("e_shoff", 40, 8), ("e_flags", 48, 4), ("e_ehsize", 52, 2),
  ("e_phentsize", 54, 2), ("e_phnum", 56, 2), ("e_shentsize", 58, 2), ("e_shnum", 60, 2), ("e_shstrndx", 62, 2)]

/-- The ELF64 program header. -/
def phdrDoc : List (String × Nat × Nat) := [("p_type", 0, 4), ("p_flags", 4, 4), ("p_offset", 8, 8),
  ("p_vaddr", 16, 8), ("p_paddr", 24, 8), ("p_filesz", 32, 8), ("p_memsz", 40, 8), ("p_align", 48, 8)]

/-- The ELF note header. -/
def nhdrDoc : List (String × Nat × Nat) := [("n_namesz", 0, 4), ("n_descsz", 4, 4), ("n_type", 8, 4)]

/-- `hvm_start_info`. -/
def startInfoDoc : List (String × Nat × Nat) := [("magic", 0, 4), ("version", 4, 4), ("flags", 8, 4),
  ("nr_modules", 12, 4), ("modlist_paddr", 16, 8), ("cmdline_paddr", 24, 8), ("rsdp_paddr", 32, 8),
  ("memmap_paddr", 40, 8), ("memmap_entries", 48, 4), ("reserved", 52, 4)]

/-- `hvm_modlist_entry`. -/
def modlistDoc : List (String × Nat × Nat) :=
  [("paddr", 0, 8), ("size", 8, 8), ("cmdline_paddr", 16, 8), ("reserved", 24, 8)]

/-- `hvm_memmap_table_entry`. -/
def memmapDoc : List (String × Nat × Nat) := [("addr", 0, 8), ("size", 8, 8), ("type_", 16, 4), ("reserved", 20, 4)]

/-- The exported types that can be read from and written as bytes, with their size and the documented places of their
integers (of `boot_params`: those outside of arrays; the arrays are in `ZeroPageInt`). -/
def exported : List (Ty × Nat × List (List Step × Nat × Nat)) := [
  (arm64ImageHeader, 64, flat arm64Doc),
  (riscv64ImageHeader, 64, flat riscv64Doc),
  (elf64Ehdr, 64, byteField [.field "e_ident"] 0 16 ++ flat ehdrDoc),
  (elf64Phdr, 56, flat phdrDoc),
  (elf64Nhdr, 12, flat nhdrDoc),
  (hvmStartInfo, 56, flat startInfoDoc),
  (hvmModlistEntry, 32, flat modlistDoc),
  (hvmMemmapTableEntry, 24, flat memmapDoc),
  (setupHeader, 0x26c - 0x1f1, setupHeaderDoc.map fun f => ([.field f.1], f.2.1 - 0x1f1, f.2.2)),
  (bootParams, 4096, zeroPageInts)]

/-- The program header that a VMM finds in a structure it has read. -/
def phdrOf (v : elf64Phdr.Val) : Option Phdr := do
  let type ← elf64Phdr.get v [.field "p_type"]
  let offset ← elf64Phdr.get v [.field "p_offset"]
  let paddr ← elf64Phdr.get v [.field "p_paddr"]
  let filesz ← elf64Phdr.get v [.field "p_filesz"]
  let memsz ← elf64Phdr.get v [.field "p_memsz"]
  return { type, offset, paddr, filesz, memsz }

end LinuxLoader.Spec
