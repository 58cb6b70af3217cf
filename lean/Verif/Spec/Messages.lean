import Verif.Model.Display

/-! # The messages of the errors, as whole texts

Extracted by a script from the `Display` implementations in /repo; only the constructor names are
adapted. The tables do not mention the model's `display` functions. -/

namespace LinuxLoader.Messages

/-- The texts of `cmdline::Error`, src/cmdline/mod.rs, with the text every one of them starts with. -/
def cmdlineTexts : List (CmdlineError × String) :=
  [(.nullTerminator, "Null terminator detected in the command line structure."),
   (.noBootArgsInserted, "Cmdline cannot contain only init args."),
   (.invalidCapacity, "Invalid cmdline capacity provided."),
   (.invalidAscii, "String contains a non-printable ASCII character."),
   (.hasSpace, "String contains a space."),
   (.hasEquals, "String contains an equals sign."),
   (.mmioSize, "0-sized virtio MMIO device passed to the kernel command line builder."),
   (.tooLarge, "Inserting string would make command line too long."),
   (.noQuoteSpace, "Value that contains spaces need to be surrounded by quotes"),
   (.invalidQuote, "Double quote can not be in the middle of the value")]

/-- The texts of `elf::Error`, src/loader/elf/mod.rs, with the text every one of them starts with. -/
def elfTexts : List (ElfError × String) :=
  [(.align, "Kernel Loader: Invalid alignment"),
   (.bigEndianElfOnLittle, "Kernel Loader: Trying to load big-endian binary on little-endian machine"),
   (.invalidElfMagicNumber, "Kernel Loader: Invalid Elf magic number"),
   (.invalidProgramHeaderSize, "Kernel Loader: Invalid program header size"),
   (.invalidProgramHeaderOffset, "Kernel Loader: Invalid program header offset"),
   (.invalidProgramHeaderAddress, "Kernel Loader: Invalid Program Header Address"),
   (.invalidEntryAddress, "Kernel Loader: Invalid entry address"),
   (.overflow, "Kernel Loader: Overflow occurred during an arithmetic operation"),
   (.readElfHeader, "Kernel Loader: Unable to read elf header"),
   (.readKernelImage, "Kernel Loader: Unable to read kernel image"),
   (.readProgramHeader, "Kernel Loader: Unable to read program header"),
   (.seekKernelStart, "Kernel Loader: Unable to seek to kernel start"),
   (.seekElfStart, "Kernel Loader: Unable to seek to elf start"),
   (.seekProgramHeader, "Kernel Loader: Unable to seek to program header"),
   (.seekNoteHeader, "Kernel Loader: Unable to seek to note header"),
   (.readNoteHeader, "Kernel Loader: Unable to read note header"),
   (.invalidPvhNote, "Kernel Loader: Invalid PVH note header")]

/-- The texts of `bzimage::Error`, src/loader/bzimage/mod.rs, with the text every one of them starts with. -/
def bzTexts : List (BzError × String) :=
  [(.invalidBzImage, "Kernel Loader: Invalid bzImage"),
   (.overflow, "Kernel Loader: Overflow occurred during an arithmetic operation"),
   (.readBzImageHeader, "Kernel Loader: Unable to read bzImage header"),
   (.readBzImageCompressedKernel, "Kernel Loader: Unable to read bzImage compressed kernel"),
   (.seekBzImageEnd, "Kernel Loader: Unable to seek bzImage end"),
   (.seekBzImageHeader, "Kernel Loader: Unable to seek bzImage header"),
   (.seekBzImageCompressedKernel, "Kernel Loader: Unable to seek bzImage compressed kernel"),
   (.underflow, "Kernel Loader: Underflow occurred during an arithmetic operation")]

/-- The texts of `pe::Error`, src/loader/pe/mod.rs, with the text every one of them starts with. -/
def peTexts : List (PeError × String) :=
  [(.seekImageEnd, "PE Kernel Loader: unable to seek Image end"),
   (.seekImageHeader, "PE Kernel Loader: unable to seek Image header"),
   (.readImageHeader, "PE Kernel Loader: unable to read Image header"),
   (.readDtbImage, "PE Kernel Loader: unable to read DTB image"),
   (.seekDtbStart, "PE Kernel Loader: unable to seek DTB start"),
   (.seekDtbEnd, "PE Kernel Loader: unable to seek DTB end"),
   (.invalidImage, "PE Kernel Loader: invalid Image"),
   (.invalidImageMagicNumber, "PE Kernel Loader: invalid Image magic number"),
   (.dtbTooBig, "PE Kernel Loader: device tree image too big"),
   (.readKernelImage, "PE Kernel Loader: unable to read kernel image"),
   (.invalidBaseAddrAlignment, "PE Kernel Loader: base address not aligned to 2 MB")]

/-- The texts of `linux::Error`, src/configurator/x86_64/linux.rs, with the text every one of them starts with. -/
def linuxTexts : List (LinuxError × String) :=
  [(.zeroPagePastRamEnd, "Linux Boot Configurator: the zero page extends past the end of guest memory."),
   (.zeroPageSetup, "Linux Boot Configurator: error writing to the zero page of guest memory.")]

/-- The texts of `pvh::Error`, src/configurator/x86_64/pvh.rs, with the text every one of them starts with. -/
def pvhTexts : List (PvhError × String) :=
  [(.memmapTableAddressMissing, "PVH Boot Configurator: the starting address for the memory map wasn't passed to the boot configurator."),
   (.memmapTableMissing, "PVH Boot Configurator: no memory map was passed to the boot configurator."),
   (.memmapTablePastRamEnd, "PVH Boot Configurator: the memory map table extends past the end of guest memory."),
   (.memmapTableSetup, "PVH Boot Configurator: error writing memory map table to guest memory."),
   (.startInfoPastRamEnd, "PVH Boot Configurator: the hvm_start_info structure extends past the end of guest memory."),
   (.startInfoSetup, "PVH Boot Configurator: error writing hvm_start_info to guest memory."),
   (.modulesAddressMissing, "PVH Boot Configurator: the starting address for the modules descriptions wasn't passed to the boot configurator."),
   (.modulesSetup, "PVH Boot Configurator: error writing module descriptions to guest memory.")]

/-- The texts of `loader::Error (the variants without a source)`, src/loader/mod.rs, with the text every one of them starts with. -/
def kernelTexts : List (KernelError × String) :=
  [(.invalidCommandLine, "Kernel Loader: invalid command line provided"),
   (.commandLineCopy, "Kernel Loader: failed writing command line to guest memory"),
   (.commandLineOverflow, "Kernel Loader: command line overflowed guest memory"),
   (.invalidKernelStartAddress, "Kernel Loader: invalid kernel start address"),
   (.memoryOverflow, "Kernel Loader: memory to load kernel image is not enough")]

/-- The texts of `configurator::Error (the variants without a source)`, src/configurator/mod.rs, with the text every one of them starts with. -/
def listTexts : List (ConfigError × String) :=
  [(.list .missingStartAddress, "Boot Configurator: boot parameter was specified without its starting address in guest memory."),
   (.list .overflow, "Boot Configurator: boot parameter address overflows."),
   (.list .invalidAddress, "Boot Configurator: boot parameter address precedes the starting address.")]

/-- The texts of `fdt::Error`, src/configurator/fdt.rs, with the text every one of them starts with. -/
def fdtTexts : List (FdtError × String) :=
  [(.fdtPastRamEnd, "Device Tree Boot Configurator: FDT does not fit in guest memory."),
   (.writeFdtToMemory, "Device Tree Boot Configurator: error writing FDT in guest memory.")]

end LinuxLoader.Messages
