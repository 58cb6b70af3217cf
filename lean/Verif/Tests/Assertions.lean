import Verif.Model.Layout

/-!
# The compile-time assertions of the crate

`const _: () = assert!(..)` in src/loader_gen/x86_64/bootparam.rs:376-387, start_info.rs:54-56, elf.rs:767-786, replayed.
-/

namespace LinuxLoader.Layout

/-- bootparam.rs -/
example : screenInfo.size = 0x40 ∧
    apmBiosInfo.size = 0x14 ∧
    istInfo.size = 0x10 ∧
    edidInfo.size = 0x80 ∧
    bootE820Entry.size = 20 ∧
    eddDeviceParams.size = 74 ∧
    eddInfo.size = 8 + 74 ∧
    sysDescTable.size = 0x10 ∧
    olpcOfwHeader.size = 0x10 ∧
    efiInfo.size = 0x20 ∧
    setupHeader.size = 123 ∧
    bootParams.size = 4096 := by decide +kernel

/-- start_info.rs -/
example : hvmStartInfo.size = 56 ∧
    hvmModlistEntry.size = 32 ∧
    hvmMemmapTableEntry.size = 24 := by decide +kernel

/-- elf.rs -/
example : elf32Ehdr.size = 52 ∧
    elf64Ehdr.size = 64 ∧
    elf32Phdr.size = 32 ∧
    elf64Phdr.size = 56 ∧
    elf32Shdr.size = 40 ∧
    elf64Shdr.size = 64 ∧
    elf32Sym.size = 16 ∧
    elf64Sym.size = 24 ∧
    elf32Rel.size = 8 ∧
    elf64Rel.size = 16 ∧
    elf32Rela.size = 12 ∧
    elf64Rela.size = 24 ∧
    elf32Dyn.size = 8 ∧
    elf64Dyn.size = 16 ∧
    elf32Nhdr.size = 12 ∧
    elf64Nhdr.size = 12 ∧
    elf32Verdef.size = 20 ∧
    elf64Verdef.size = 20 ∧
    elf32Verdaux.size = 8 ∧
    elf64Verdaux.size = 8 := by decide +kernel

end LinuxLoader.Layout
