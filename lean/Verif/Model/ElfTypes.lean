import Verif.Model.Debug

/-!
# The structures of elf.rs that the crate exports but does not read or write itself

With their `Debug`. `Elf32_Dyn` and `Elf64_Dyn` have a union and no `Debug`; `Elf32_Rela` and `Elf64_Rela` have a signed
field and are given separately.
-/

namespace LinuxLoader
namespace Types
open Layout

/-- `Elf32_Ehdr`, src/loader_gen/x86_64/elf.rs:523-540. -/
def elf32Ehdr : Ty := .struct 16 (
  ("e_ident", .arr i8 16) ::ₛ ("e_type", i16) ::ₛ ("e_machine", i16) ::ₛ ("e_version", i32) ::ₛ
  ("e_entry", i32) ::ₛ ("e_phoff", i32) ::ₛ ("e_shoff", i32) ::ₛ ("e_flags", i32) ::ₛ ("e_ehsize", i16) ::ₛ
  ("e_phentsize", i16) ::ₛ ("e_phnum", i16) ::ₛ ("e_shentsize", i16) ::ₛ ("e_shnum", i16) ::ₛ
  ("e_shstrndx", i16) ::ₛ .nil)

/-- `Elf32_Phdr`, src/loader_gen/x86_64/elf.rs:542-553. -/
def elf32Phdr : Ty := .struct 16 (
  ("p_type", i32) ::ₛ ("p_offset", i32) ::ₛ ("p_vaddr", i32) ::ₛ ("p_paddr", i32) ::ₛ ("p_filesz", i32) ::ₛ
  ("p_memsz", i32) ::ₛ ("p_flags", i32) ::ₛ ("p_align", i32) ::ₛ .nil)

/-- `Elf32_Shdr`, src/loader_gen/x86_64/elf.rs:555-568. -/
def elf32Shdr : Ty := .struct 16 (
  ("sh_name", i32) ::ₛ ("sh_type", i32) ::ₛ ("sh_flags", i32) ::ₛ ("sh_addr", i32) ::ₛ ("sh_offset", i32) ::ₛ
  ("sh_size", i32) ::ₛ ("sh_link", i32) ::ₛ ("sh_info", i32) ::ₛ ("sh_addralign", i32) ::ₛ
  ("sh_entsize", i32) ::ₛ .nil)

/-- `Elf32_Sym`, src/loader_gen/x86_64/elf.rs:570-579. -/
def elf32Sym : Ty := .struct 16 (
  ("st_name", i32) ::ₛ ("st_value", i32) ::ₛ ("st_size", i32) ::ₛ ("st_info", i8) ::ₛ ("st_other", i8) ::ₛ
  ("st_shndx", i16) ::ₛ .nil)

/-- `Elf32_Rel`, src/loader_gen/x86_64/elf.rs:581-586. -/
def elf32Rel : Ty := .struct 16 (
  ("r_offset", i32) ::ₛ ("r_info", i32) ::ₛ .nil)

/-- `Elf32_Nhdr`, src/loader_gen/x86_64/elf.rs:614-620. -/
def elf32Nhdr : Ty := .struct 16 (
  ("n_namesz", i32) ::ₛ ("n_descsz", i32) ::ₛ ("n_type", i32) ::ₛ .nil)

/-- `Elf32_Verdef`, src/loader_gen/x86_64/elf.rs:622-632. -/
def elf32Verdef : Ty := .struct 16 (
  ("vd_version", i16) ::ₛ ("vd_flags", i16) ::ₛ ("vd_ndx", i16) ::ₛ ("vd_cnt", i16) ::ₛ ("vd_hash", i32) ::ₛ
  ("vd_aux", i32) ::ₛ ("vd_next", i32) ::ₛ .nil)

/-- `Elf32_Verdaux`, src/loader_gen/x86_64/elf.rs:634-639. -/
def elf32Verdaux : Ty := .struct 16 (
  ("vda_name", i32) ::ₛ ("vda_next", i32) ::ₛ .nil)

/-- `Elf64_Shdr`, src/loader_gen/x86_64/elf.rs:677-690. -/
def elf64Shdr : Ty := .struct 16 (
  ("sh_name", i32) ::ₛ ("sh_type", i32) ::ₛ ("sh_flags", i64) ::ₛ ("sh_addr", i64) ::ₛ ("sh_offset", i64) ::ₛ
  ("sh_size", i64) ::ₛ ("sh_link", i32) ::ₛ ("sh_info", i32) ::ₛ ("sh_addralign", i64) ::ₛ
  ("sh_entsize", i64) ::ₛ .nil)

/-- `Elf64_Sym`, src/loader_gen/x86_64/elf.rs:692-701. -/
def elf64Sym : Ty := .struct 16 (
  ("st_name", i32) ::ₛ ("st_info", i8) ::ₛ ("st_other", i8) ::ₛ ("st_shndx", i16) ::ₛ ("st_value", i64) ::ₛ
  ("st_size", i64) ::ₛ .nil)

/-- `Elf64_Rel`, src/loader_gen/x86_64/elf.rs:703-708. -/
def elf64Rel : Ty := .struct 16 (
  ("r_offset", i64) ::ₛ ("r_info", i64) ::ₛ .nil)

/-- `Elf64_Verdef`, src/loader_gen/x86_64/elf.rs:744-754. -/
def elf64Verdef : Ty := .struct 16 (
  ("vd_version", i16) ::ₛ ("vd_flags", i16) ::ₛ ("vd_ndx", i16) ::ₛ ("vd_cnt", i16) ::ₛ ("vd_hash", i32) ::ₛ
  ("vd_aux", i32) ::ₛ ("vd_next", i32) ::ₛ .nil)

/-- `Elf64_Verdaux`, src/loader_gen/x86_64/elf.rs:756-761. -/
def elf64Verdaux : Ty := .struct 16 (
  ("vda_name", i32) ::ₛ ("vda_next", i32) ::ₛ .nil)

/-- The structures above with the names of the types and the layouts of `Model/Layout.lean`; those of
src/loader_gen/x86_64/elf.rs:523-761 with a `Debug` and unsigned fields only, without the ones of `byteValued`. -/
def elfOnly : List (Ty × Layout × String) := [
  (elf32Ehdr, Layout.elf32Ehdr, "Elf32_Ehdr"),
  (elf32Phdr, Layout.elf32Phdr, "Elf32_Phdr"),
  (elf32Shdr, Layout.elf32Shdr, "Elf32_Shdr"),
  (elf32Sym, Layout.elf32Sym, "Elf32_Sym"),
  (elf32Rel, Layout.elf32Rel, "Elf32_Rel"),
  (elf32Nhdr, Layout.elf32Nhdr, "Elf32_Nhdr"),
  (elf32Verdef, Layout.elf32Verdef, "Elf32_Verdef"),
  (elf32Verdaux, Layout.elf32Verdaux, "Elf32_Verdaux"),
  (elf64Shdr, Layout.elf64Shdr, "Elf64_Shdr"),
  (elf64Sym, Layout.elf64Sym, "Elf64_Sym"),
  (elf64Rel, Layout.elf64Rel, "Elf64_Rel"),
  (elf64Verdef, Layout.elf64Verdef, "Elf64_Verdef"),
  (elf64Verdaux, Layout.elf64Verdaux, "Elf64_Verdaux")]

end Types

/-- `Debug` of a signed integer (std), decimal; of the field at src/loader_gen/x86_64/elf.rs:593, 715. -/
def debugInt : Int → Str
  | .ofNat n => Cmdline.decStr n
  | .negSucc n => '-' :: Cmdline.decStr (n + 1)

/-- `Elf32_Rela` (`w = 4`), src/loader_gen/x86_64/elf.rs:588-594, and `Elf64_Rela` (`w = 8`), 710-716; the addend is the
only signed field (`i32`, `i64`). -/
structure Rela (w : Nat) where
  offset : BitVec (8 * w)
  info : BitVec (8 * w)
  addend : BitVec (8 * w)

/-- `Debug for Elf32_Rela` and `Debug for Elf64_Rela`, derived at src/loader_gen/x86_64/elf.rs:589, 711. -/
def Rela.debug {w : Nat} (name : String) (r : Rela w) : Str :=
  debugStruct name [debugField "r_offset" (Cmdline.decStr r.offset.toNat), debugField "r_info" (Cmdline.decStr r.info.toNat),
    debugField "r_addend" (debugInt r.addend.toInt)]

end LinuxLoader
