import Verif.Model.Pe
import Verif.Model.BootParams

/-! # Model of the error messages: `Display`, `Error::source` and `From` implementations -/

namespace LinuxLoader

/-- `Display for cmdline::Error`, src/cmdline/mod.rs:46-71. -/
def CmdlineError.display : CmdlineError → Str
  | .nullTerminator => "Null terminator detected in the command line structure.".toList
  | .noBootArgsInserted => "Cmdline cannot contain only init args.".toList
  | .invalidCapacity => "Invalid cmdline capacity provided.".toList
  | .invalidAscii => "String contains a non-printable ASCII character.".toList
  | .hasSpace => "String contains a space.".toList
  | .hasEquals => "String contains an equals sign.".toList
  | .missingVal k => "Missing value for key ".toList ++ k ++ ".".toList
  | .mmioSize => "0-sized virtio MMIO device passed to the kernel command line builder.".toList
  | .tooLarge => "Inserting string would make command line too long.".toList
  | .noQuoteSpace => "Value that contains spaces need to be surrounded by quotes".toList
  | .invalidQuote => "Double quote can not be in the middle of the value".toList

/-- `Display for elf::Error`, src/loader/elf/mod.rs:80-107. -/
def ElfError.display (e : ElfError) : Str :=
  "Kernel Loader: ".toList ++ (match e with
  | .align => "Invalid alignment"
  | .bigEndianElfOnLittle => "Trying to load big-endian binary on little-endian machine"
  | .invalidElfMagicNumber => "Invalid Elf magic number"
  | .invalidProgramHeaderSize => "Invalid program header size"
  | .invalidProgramHeaderOffset => "Invalid program header offset"
  | .invalidProgramHeaderAddress => "Invalid Program Header Address"
  | .invalidEntryAddress => "Invalid entry address"
  | .overflow => "Overflow occurred during an arithmetic operation"
  | .readElfHeader => "Unable to read elf header"
  | .readKernelImage => "Unable to read kernel image"
  | .readProgramHeader => "Unable to read program header"
  | .seekKernelStart => "Unable to seek to kernel start"
  | .seekElfStart => "Unable to seek to elf start"
  | .seekProgramHeader => "Unable to seek to program header"
  | .seekNoteHeader => "Unable to seek to note header"
  | .readNoteHeader => "Unable to read note header"
  | .invalidPvhNote => "Invalid PVH note header").toList

/-- `Display for bzimage::Error`, src/loader/bzimage/mod.rs:46-61. -/
def BzError.display (e : BzError) : Str :=
  "Kernel Loader: ".toList ++ (match e with
  | .invalidBzImage => "Invalid bzImage"
  | .overflow => "Overflow occurred during an arithmetic operation"
  | .readBzImageHeader => "Unable to read bzImage header"
  | .readBzImageCompressedKernel => "Unable to read bzImage compressed kernel"
  | .seekBzImageEnd => "Unable to seek bzImage end"
  | .seekBzImageHeader => "Unable to seek bzImage header"
  | .seekBzImageCompressedKernel => "Unable to seek bzImage compressed kernel"
  | .underflow => "Underflow occurred during an arithmetic operation").toList

/-- `Display for pe::Error`, src/loader/pe/mod.rs:53-71. -/
def PeError.display (e : PeError) : Str :=
  "PE Kernel Loader: ".toList ++ (match e with
  | .seekImageEnd => "unable to seek Image end"
  | .seekImageHeader => "unable to seek Image header"
  | .readImageHeader => "unable to read Image header"
  | .readDtbImage => "unable to read DTB image"
  | .seekDtbStart => "unable to seek DTB start"
  | .seekDtbEnd => "unable to seek DTB end"
  | .invalidImage => "invalid Image"
  | .invalidImageMagicNumber => "invalid Image magic number"
  | .dtbTooBig => "device tree image too big"
  | .readKernelImage => "unable to read kernel image"
  | .invalidBaseAddrAlignment => "base address not aligned to 2 MB").toList

/-- `loader::Error`, src/loader/mod.rs:49-74. The variants of all architectures together (a build has
either `Bzimage` and `Elf`, or `Pe`). -/
inductive KernelError where
  | bzimage (e : BzError)
  | elf (e : ElfError)
  | pe (e : PeError)
  | invalidCommandLine
  | commandLineCopy
  | commandLineOverflow
  | invalidKernelStartAddress
  | memoryOverflow
deriving DecidableEq, Repr

/-- `Display for loader::Error`, src/loader/mod.rs:81-99. -/
def KernelError.display (e : KernelError) : Str :=
  "Kernel Loader: ".toList ++ (match e with
  | .bzimage e => "failed to load bzImage kernel image: ".toList ++ e.display
  | .elf e => "failed to load ELF kernel image: ".toList ++ e.display
  | .pe e => "failed to load PE kernel image: ".toList ++ e.display
  | .invalidCommandLine => "invalid command line provided".toList
  | .commandLineCopy => "failed writing command line to guest memory".toList
  | .commandLineOverflow => "command line overflowed guest memory".toList
  | .invalidKernelStartAddress => "invalid kernel start address".toList
  | .memoryOverflow => "memory to load kernel image is not enough".toList)

/-- `Error::source` of `loader::Error`, src/loader/mod.rs:101-118, as the message of the source. -/
def KernelError.source : KernelError → Option Str
  | .bzimage e => some e.display
  | .elf e => some e.display
  | .pe e => some e.display
  | .invalidCommandLine => none
  | .commandLineCopy => none
  | .commandLineOverflow => none
  | .invalidKernelStartAddress => none
  | .memoryOverflow => none

/-- `From<elf::Error>`, `From<bzimage::Error>`, `From<pe::Error>` for `loader::Error`,
src/loader/mod.rs:120-139: what `?` and `.into()` do with the loaders' errors in the model. -/
def LoadError.toKernelError : LoadError → KernelError
  | .elf e => .elf e
  | .bz e => .bzimage e
  | .pe e => .pe e
  | .invalidKernelStartAddress => .invalidKernelStartAddress
  | .memoryOverflow => .memoryOverflow

/-- `Display for linux::Error`, src/configurator/x86_64/linux.rs:33-43. -/
def LinuxError.display (e : LinuxError) : Str :=
  "Linux Boot Configurator: ".toList ++ (match e with
  | .zeroPagePastRamEnd => "the zero page extends past the end of guest memory."
  | .zeroPageSetup => "error writing to the zero page of guest memory.").toList

/-- `Display for pvh::Error`, src/configurator/x86_64/pvh.rs:48-69. -/
def PvhError.display (e : PvhError) : Str :=
  "PVH Boot Configurator: ".toList ++ (match e with
  | .memmapTableAddressMissing =>
    "the starting address for the memory map wasn't passed to the boot configurator."
  | .memmapTableMissing => "no memory map was passed to the boot configurator."
  | .memmapTablePastRamEnd => "the memory map table extends past the end of guest memory."
  | .memmapTableSetup => "error writing memory map table to guest memory."
  | .startInfoPastRamEnd => "the hvm_start_info structure extends past the end of guest memory."
  | .startInfoSetup => "error writing hvm_start_info to guest memory."
  | .modulesAddressMissing =>
    "the starting address for the modules descriptions wasn't passed to the boot configurator."
  | .modulesSetup => "error writing module descriptions to guest memory.").toList

/-- `Display for fdt::Error`, src/configurator/fdt.rs:22-32. -/
def FdtError.display (e : FdtError) : Str :=
  "Device Tree Boot Configurator: ".toList ++ (match e with
  | .fdtPastRamEnd => "FDT does not fit in guest memory."
  | .writeFdtToMemory => "error writing FDT in guest memory.").toList

/-- `configurator::Error`, src/configurator/mod.rs:37-56, all architectures together; the last three
variants are those of `ListError`. -/
inductive ConfigError where
  | linux (e : LinuxError)
  | pvh (e : PvhError)
  | fdt (e : FdtError)
  | list (e : ListError)
deriving DecidableEq, Repr

/-- `Display for configurator::Error`, src/configurator/mod.rs:58-79. -/
def ConfigError.display (e : ConfigError) : Str :=
  "Boot Configurator: ".toList ++ (match e with
  | .linux _ => "failed to configure boot parameter by Linux Boot protocol."
  | .pvh _ => "failed to configure boot parameter by PVH."
  | .fdt _ => "failed to configure boot parameter by FDT."
  | .list .missingStartAddress =>
    "boot parameter was specified without its starting address in guest memory."
  | .list .overflow => "boot parameter address overflows."
  | .list .invalidAddress => "boot parameter address precedes the starting address.").toList

/-- `Error::source` of `configurator::Error`, src/configurator/mod.rs:81-97, as the message of the
source. -/
def ConfigError.source : ConfigError → Option Str
  | .linux e => some e.display
  | .pvh e => some e.display
  | .fdt e => some e.display
  | .list _ => none

/-- `{:#x}` on a `u64` (std), used in src/loader/elf/mod.rs:126-130. -/
def hexAlt (n : Nat) : Str := ['0', 'x'] ++ Cmdline.hexStr n

/-- `Display for PvhBootCapability`, src/loader/elf/mod.rs:123-135. -/
def PvhCap.display : PvhCap → Str
  | .present a => "PVH entry point present at guest address: ".toList ++ hexAlt a
  | .notPresent => "PVH entry point not present".toList
  | .ignored => "PVH entry point ignored".toList

end LinuxLoader
