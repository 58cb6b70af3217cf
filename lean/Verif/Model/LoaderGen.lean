import Verif.Model.ZeroPage

/-!
# Helpers and trait implementations of the generated structures
-/

namespace LinuxLoader

/-- `ELF_ST_BIND`, src/loader_gen/x86_64/elf.rs:188-191 (also `ELF32_ST_BIND`, `ELF64_ST_BIND`, lines
198-201, 208-211, which call it). -/
def elfStBind (info : UInt8) : UInt8 := info >>> 4

/-- `ELF_ST_TYPE`, src/loader_gen/x86_64/elf.rs:193-196 (also `ELF32_ST_TYPE`, `ELF64_ST_TYPE`, lines
203-206, 213-216). -/
def elfStType (info : UInt8) : UInt8 := info &&& 0xf

/-- `ELF32_R_SYM`, src/loader_gen/x86_64/elf.rs:222-225. -/
def elf32RSym (info : UInt32) : UInt32 := info >>> 8

/-- `ELF32_R_TYPE`, src/loader_gen/x86_64/elf.rs:227-230. -/
def elf32RType (info : UInt32) : UInt8 := (info &&& 0xff).toUInt8

/-- `ELF64_R_SYM`, src/loader_gen/x86_64/elf.rs:232-235. -/
def elf64RSym (info : UInt64) : UInt32 := (info >>> 32).toUInt32

/-- `ELF64_R_TYPE`, src/loader_gen/x86_64/elf.rs:237-240. -/
def elf64RType (info : UInt64) : UInt32 := (info &&& 0xffffffff).toUInt32

/-- `Default::default()` of a generated structure, field by field: derived where all fields are integers
or short arrays (src/loader_gen/x86_64/bootparam.rs, elf.rs, start_info.rs: `#[derive(Default)]`),
`mem::zeroed()` for `edid_info` and `boot_params` (bootparam.rs:179-183, 366-370). -/
def defaultFields (l : Layout.Layout) : String → List UInt8 := fun n =>
  match l.fields.lookup n with
  | some (_, size) => List.replicate size 0
  | none => []

/-- Assignments to fields, in order. On the structures in src/loader_gen/x86_64/bootparam.rs,
start_info.rs, elf.rs. -/
def assign (v : String → List UInt8) : List (String × List UInt8) → String → List UInt8
  | [] => v
  | (n, b) :: as => assign (fun k => if k = n then b else v k) as

/-- `PartialEq` derived for the structures of src/loader_gen: all fields are equal. All fields are
integers, arrays of integers or such structures, so that fields are equal iff their bytes are.
src/loader_gen/x86_64/bootparam.rs, start_info.rs, elf.rs. -/
def derivedEq (l : Layout.Layout) (v w : String → List UInt8) : Bool :=
  l.fields.all fun f => v f.1 == w f.1

end LinuxLoader
