import Verif.Model.Types

/-!
# C56, continued: alignment

A structure of the zero page may be read or written at any address: none has an alignment above 1. The
structures of the PVH and ELF interfaces have the alignment of the C declarations.
-/

namespace LinuxLoader
namespace Layout

/-- **C56.** No structure of the zero page requires alignment; the structures of the PVH interface are aligned to
8 bytes, those of 32-bit ELF to 4, those of 64-bit ELF to 8, except the note and version structures (4). -/
theorem C56_alignment :
    (∀ t ∈ [Types.screenInfo, Types.apmBiosInfo, Types.istInfo, Types.edidInfo, Types.bootE820Entry,
        Types.eddDeviceParams, Types.eddInfo, Types.setupHeader, Types.sysDescTable, Types.olpcOfwHeader,
        Types.efiInfo, Types.bootParams], t.layout.align = 1) ∧
    (∀ l ∈ [setupHeader, bootParams], l.align = 1) ∧
    (∀ t ∈ [Types.hvmStartInfo, Types.hvmModlistEntry, Types.hvmMemmapTableEntry, Types.elf64Ehdr,
        Types.elf64Phdr, Types.arm64ImageHeader, Types.riscv64ImageHeader], t.layout.align = 8) ∧
    (∀ l ∈ [hvmStartInfo, hvmModlistEntry, hvmMemmapTableEntry, elf64Ehdr, elf64Phdr, elf64Shdr, elf64Sym,
        elf64Rel, elf64Rela, elf64Dyn, arm64ImageHeader, riscv64ImageHeader], l.align = 8) ∧
    (∀ l ∈ [elf32Ehdr, elf32Phdr, elf32Shdr, elf32Sym, elf32Rel, elf32Rela, elf32Dyn, elf32Nhdr, elf32Verdef,
        elf32Verdaux, elf64Nhdr, elf64Verdef, elf64Verdaux], l.align = 4) ∧
    Types.elf64Nhdr.layout.align = 4 := by decide +kernel

/-- Non-vacuity: a packed structure differs from the same fields without packing. -/
example : Types.efiInfo.layout.align = 1 ∧ (∃ fs, Types.efiInfo = .struct 1 fs ∧ (Types.Ty.struct 16 fs).layout.align = 4) :=
  ⟨by decide +kernel, _, rfl, by decide +kernel⟩

end Layout
end LinuxLoader
