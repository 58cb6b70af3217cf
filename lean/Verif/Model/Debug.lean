import Verif.Model.Display
import Verif.Model.Values

/-!
# Model of the `Debug` implementations (`{:?}`)

All of them are derived. `Formatter::debug_struct`, `debug_tuple`, `debug_list` and the `Debug` implementations of
`str` and of the unsigned integers are those of std; `GuestAddress` (vm-memory) is a tuple structure with a derived
`Debug`. Only `{:?}` is modelled, not `{:#?}`.
-/

namespace LinuxLoader

/-- The Unicode tables of std (`char::is_grapheme_extended`, `core::unicode::printable`), on characters that are not
ASCII; they change with the version of Unicode and stay arbitrary here. Used by the derived `Debug` of
src/cmdline/mod.rs:20, 145. -/
structure CharTables where
  graphemeExtended : Char → Bool
  printable : Char → Bool

/-- `core::unicode::printable::is_printable` (std): for ASCII 0x20 to 0x7e; by the derived `Debug` of
src/cmdline/mod.rs:20, 145. -/
def CharTables.isPrintable (U : CharTables) (c : Char) : Bool :=
  if c.toNat < 0x80 then decide (0x20 ≤ c.toNat ∧ c.toNat < 0x7f) else U.printable c

/-- `char::is_grapheme_extended` (std): no ASCII character is; by the derived `Debug` of src/cmdline/mod.rs:20, 145. -/
def CharTables.isGraphemeExtended (U : CharTables) (c : Char) : Bool :=
  if c.toNat < 0x80 then false else U.graphemeExtended c

/-- `char::escape_unicode` (std), `\u{1f600}`; by the derived `Debug` of src/cmdline/mod.rs:20, 145. -/
def escapeUnicode (c : Char) : Str := ['\\', 'u', '{'] ++ (Cmdline.hexStr c.toNat ++ ['}'])

/-- `char::escape_debug_ext` (std) as `<str as Debug>::fmt` calls it (double quotes are escaped, single quotes are not);
by the derived `Debug` of src/cmdline/mod.rs:20, 145. -/
def CharTables.escapeDebug (U : CharTables) (c : Char) : Str :=
  if c = '\x00' then ['\\', '0']
  else if c = '\t' then ['\\', 't']
  else if c = '\r' then ['\\', 'r']
  else if c = '\n' then ['\\', 'n']
  else if c = '"' then ['\\', '"']
  else if c = '\\' then ['\\', '\\']
  else if U.isGraphemeExtended c = true then escapeUnicode c
  else if U.isPrintable c = true then [c]
  else escapeUnicode c

/-- `<str as Debug>::fmt` (std); by the derived `Debug` of src/cmdline/mod.rs:20, 145. -/
def CharTables.debugStr (U : CharTables) (s : Str) : Str := ['"'] ++ (s.flatMap U.escapeDebug ++ ['"'])

/-- The entries of `debug_struct` and `debug_list` (std), separated by `, `; by the derived `Debug` of
src/loader/mod.rs:146. -/
def commaSeparated : List Str → Str
  | [] => []
  | [x] => x
  | x :: y :: rest => x ++ ([',', ' '] ++ commaSeparated (y :: rest))

/-- One field in `debug_struct` (std), `name: value`; by the derived `Debug` of src/loader/mod.rs:146. -/
def debugField (name : String) (value : Str) : Str := name.toList ++ ([':', ' '] ++ value)

/-- `Formatter::debug_struct` (std) of a structure with at least one field, `Name { a: 1, b: 2 }`; by the derived
`Debug` of src/loader/mod.rs:146. -/
def debugStruct (name : String) (fields : List Str) : Str :=
  name.toList ++ ([' ', '{', ' '] ++ (commaSeparated fields ++ [' ', '}']))

/-- `Formatter::debug_tuple` (std) with one field, `Name(value)`; by the derived `Debug` of src/loader/mod.rs:49. -/
def debugTuple (name : String) (value : Str) : Str := name.toList ++ (['('] ++ (value ++ [')']))

/-- `Formatter::debug_list` (std), `[1, 2]`; by the derived `Debug` of src/loader_gen/x86_64/bootparam.rs:314. -/
def debugList (items : List Str) : Str := ['['] ++ (commaSeparated items ++ [']'])

/-- `Debug for Cmdline`, derived at src/cmdline/mod.rs:145-150. -/
def Cmdline.debug (U : CharTables) (c : Cmdline) : Str :=
  debugStruct "Cmdline" [debugField "boot_args" (U.debugStr c.bootArgs),
    debugField "init_args" (U.debugStr c.initArgs), debugField "capacity" (decStr c.capacity.toNat)]

/-- `Debug for cmdline::Error`, derived at src/cmdline/mod.rs:20-44. -/
def CmdlineError.debug (U : CharTables) : CmdlineError → Str
  | .nullTerminator => "NullTerminator".toList
  | .noBootArgsInserted => "NoBootArgsInserted".toList
  | .invalidCapacity => "InvalidCapacity".toList
  | .invalidAscii => "InvalidAscii".toList
  | .hasSpace => "HasSpace".toList
  | .hasEquals => "HasEquals".toList
  | .missingVal k => debugTuple "MissingVal" (U.debugStr k)
  | .mmioSize => "MmioSize".toList
  | .tooLarge => "TooLarge".toList
  | .noQuoteSpace => "NoQuoteSpace".toList
  | .invalidQuote => "InvalidQuote".toList

/-- `Debug for elf::Error`, derived at src/loader/elf/mod.rs:40-78. -/
def ElfError.debug : ElfError → Str
  | .align => "Align".toList
  | .bigEndianElfOnLittle => "BigEndianElfOnLittle".toList
  | .invalidElfMagicNumber => "InvalidElfMagicNumber".toList
  | .invalidProgramHeaderSize => "InvalidProgramHeaderSize".toList
  | .invalidProgramHeaderOffset => "InvalidProgramHeaderOffset".toList
  | .invalidProgramHeaderAddress => "InvalidProgramHeaderAddress".toList
  | .invalidEntryAddress => "InvalidEntryAddress".toList
  | .overflow => "Overflow".toList
  | .readElfHeader => "ReadElfHeader".toList
  | .readKernelImage => "ReadKernelImage".toList
  | .readProgramHeader => "ReadProgramHeader".toList
  | .seekKernelStart => "SeekKernelStart".toList
  | .seekElfStart => "SeekElfStart".toList
  | .seekProgramHeader => "SeekProgramHeader".toList
  | .seekNoteHeader => "SeekNoteHeader".toList
  | .readNoteHeader => "ReadNoteHeader".toList
  | .invalidPvhNote => "InvalidPvhNote".toList

/-- `Debug for bzimage::Error`, derived at src/loader/bzimage/mod.rs:25-44. -/
def BzError.debug : BzError → Str
  | .invalidBzImage => "InvalidBzImage".toList
  | .overflow => "Overflow".toList
  | .readBzImageHeader => "ReadBzImageHeader".toList
  | .readBzImageCompressedKernel => "ReadBzImageCompressedKernel".toList
  | .seekBzImageEnd => "SeekBzImageEnd".toList
  | .seekBzImageHeader => "SeekBzImageHeader".toList
  | .seekBzImageCompressedKernel => "SeekBzImageCompressedKernel".toList
  | .underflow => "Underflow".toList

/-- `Debug for pe::Error`, derived at src/loader/pe/mod.rs:26-51. -/
def PeError.debug : PeError → Str
  | .seekImageEnd => "SeekImageEnd".toList
  | .seekImageHeader => "SeekImageHeader".toList
  | .readImageHeader => "ReadImageHeader".toList
  | .readDtbImage => "ReadDtbImage".toList
  | .seekDtbStart => "SeekDtbStart".toList
  | .seekDtbEnd => "SeekDtbEnd".toList
  | .invalidImage => "InvalidImage".toList
  | .invalidImageMagicNumber => "InvalidImageMagicNumber".toList
  | .dtbTooBig => "DtbTooBig".toList
  | .readKernelImage => "ReadKernelImage".toList
  | .invalidBaseAddrAlignment => "InvalidBaseAddrAlignment".toList

/-- `Debug for loader::Error`, derived at src/loader/mod.rs:49-74. -/
def KernelError.debug : KernelError → Str
  | .bzimage e => debugTuple "Bzimage" e.debug
  | .elf e => debugTuple "Elf" e.debug
  | .pe e => debugTuple "Pe" e.debug
  | .invalidCommandLine => "InvalidCommandLine".toList
  | .commandLineCopy => "CommandLineCopy".toList
  | .commandLineOverflow => "CommandLineOverflow".toList
  | .invalidKernelStartAddress => "InvalidKernelStartAddress".toList
  | .memoryOverflow => "MemoryOverflow".toList

/-- `Debug for linux::Error`, derived at src/configurator/x86_64/linux.rs:25-31. -/
def LinuxError.debug : LinuxError → Str
  | .zeroPagePastRamEnd => "ZeroPagePastRamEnd".toList
  | .zeroPageSetup => "ZeroPageSetup".toList

/-- `Debug for pvh::Error`, derived at src/configurator/x86_64/pvh.rs:28-46. -/
def PvhError.debug : PvhError → Str
  | .memmapTableAddressMissing => "MemmapTableAddressMissing".toList
  | .memmapTableMissing => "MemmapTableMissing".toList
  | .memmapTablePastRamEnd => "MemmapTablePastRamEnd".toList
  | .memmapTableSetup => "MemmapTableSetup".toList
  | .startInfoPastRamEnd => "StartInfoPastRamEnd".toList
  | .startInfoSetup => "StartInfoSetup".toList
  | .modulesAddressMissing => "ModulesAddressMissing".toList
  | .modulesSetup => "ModulesSetup".toList

/-- `Debug for fdt::Error`, derived at src/configurator/fdt.rs:14-20. -/
def FdtError.debug : FdtError → Str
  | .fdtPastRamEnd => "FDTPastRamEnd".toList
  | .writeFdtToMemory => "WriteFDTToMemory".toList

/-- `Debug for configurator::Error`, derived at src/configurator/mod.rs:37-56. -/
def ConfigError.debug : ConfigError → Str
  | .linux e => debugTuple "Linux" e.debug
  | .pvh e => debugTuple "Pvh" e.debug
  | .fdt e => debugTuple "Fdt" e.debug
  | .list .missingStartAddress => "MissingStartAddress".toList
  | .list .overflow => "Overflow".toList
  | .list .invalidAddress => "InvalidAddress".toList

/-- `Debug for GuestAddress`, derived (vm-memory); in src/loader/mod.rs:149 and src/loader/elf/mod.rs:114. -/
def debugAddress (a : Nat) : Str := debugTuple "GuestAddress" (Cmdline.decStr a)

/-- `Debug for PvhBootCapability`, derived at src/loader/elf/mod.rs:109-121. -/
def PvhCap.debug : PvhCap → Str
  | .present a => debugTuple "PvhEntryPresent" (debugAddress a)
  | .notPresent => "PvhEntryNotPresent".toList
  | .ignored => "PvhEntryIgnored".toList

namespace Types

/-- The name of the structure type of a field with a given name, where the two differ:
src/loader_gen/x86_64/bootparam.rs:233 (`params`), 344 (`hdr`), 347 (`e820_table`), 349 (`eddbuf`). -/
def structName (fieldName : String) : String :=
  if fieldName = "params" then "edd_device_params"
  else if fieldName = "hdr" then "setup_header"
  else if fieldName = "e820_table" then "boot_e820_entry"
  else if fieldName = "eddbuf" then "edd_info"
  else fieldName

mutual
/-- The derived `Debug` of a structure (`name` is the name of the type) or of a field of one, in
src/loader_gen/x86_64/bootparam.rs:107-351, start_info.rs:21-54, elf.rs:645-742, src/loader/pe/mod.rs:77-117. -/
def Ty.debug : (t : Ty) → String → t.Val → Str
  | .int _, _, x => Cmdline.decStr (BitVec.toNat x)
  | .arr t _, name, v => debugList (List.ofFn fun i => t.debug name (v i))
  | .struct _ fs, name, v => debugStruct name (fs.debugs v)
/-- The fields of a structure in the derived `Debug`, src/loader_gen/x86_64/bootparam.rs:107-351, start_info.rs:21-54,
elf.rs:645-742, src/loader/pe/mod.rs:77-117. -/
def Fields.debugs : (fs : Fields) → fs.Vals → List Str
  | .nil, _ => []
  | .cons n t rest, (x, xs) => debugField n (t.debug (structName n) x) :: rest.debugs xs
end

end Types

/-- `Debug for Option<setup_header>` (std, and derived at src/loader_gen/x86_64/bootparam.rs:238), for a header given
by its bytes; a field of src/loader/mod.rs:155. -/
def debugSetupHeader : Option (List UInt8) → Str
  | none => "None".toList
  | some b => debugTuple "Some" (Types.setupHeader.debug "setup_header" (Types.setupHeader.ofSlice b))

/-- `Debug for KernelLoaderResult`, derived at src/loader/mod.rs:146-162: with the two fields that exist on x86_64 only
(and `pvh_boot_cap` only with a feature, C110), or without. -/
def LoadResult.debug (x86 : Bool) (r : LoadResult) : Str :=
  debugStruct "KernelLoaderResult"
    ([debugField "kernel_load" (debugAddress r.kernelLoad), debugField "kernel_end" (Cmdline.decStr r.kernelEnd)] ++
      if x86 then [debugField "setup_header" (debugSetupHeader r.setupHeader), debugField "pvh_boot_cap" r.pvh.debug]
      else [])

end LinuxLoader
