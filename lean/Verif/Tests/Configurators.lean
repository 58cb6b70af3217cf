import Verif.Model.ZeroPage
import Verif.Model.Display
import Verif.Tests.Loaders

/-!
# Tests (not proofs): the unit tests of src/configurator, and the example of src/lib.rs, replayed on the
model
-/

namespace LinuxLoader.Tests

-- configurator/mod.rs, test_bootparam_list_addition
example : addToList [0, 0, 0, 0, 0] none ⟨[], none⟩ = (.err .missingStartAddress, ⟨[], none⟩) ∧
    addToList [0, 0, 0, 0, 0] none ⟨[], some 0x1000⟩ = (.ok 0x1000, ⟨[0, 0, 0, 0, 0], some 0x1000⟩) ∧
    addToList [0, 0, 0, 0, 0] (some 0x1000) ⟨[0, 0, 0, 0, 0], none⟩ =
      (.ok 0x1000, ⟨[0, 0, 0, 0, 0], some 0x1000⟩) ∧
    (addToList [0, 0, 0, 0, 0] (some 0xf00) ⟨[0, 0, 0, 0, 0], some 0x1000⟩).1 = .err .invalidAddress := by
  decide +kernel
example : addToList [2, 2, 2, 3, 3] none ⟨[0, 0, 0, 0, 0], some 0x1000⟩ =
      (.ok 0x1005, ⟨[0, 0, 0, 0, 0, 2, 2, 2, 3, 3], some 0x1000⟩) ∧
    addToList [1, 1, 1, 1, 1] (some 0x1008) ⟨[0, 0, 0, 0, 0, 2, 2, 2, 3, 3], some 0x1000⟩ =
      (.ok 0x1008, ⟨[0, 0, 0, 0, 0, 2, 2, 2, 1, 1, 1, 1, 1], some 0x1000⟩) := by decide +kernel

/-- A dummy section or module of 8 zero bytes. -/
def dummy : List UInt8 := List.replicate 8 0

-- configurator/mod.rs, test_bootparams
example : (BootParams.new dummy 0x1000).run [.setSections [dummy, dummy] 0x2000,
      .setSections [dummy, dummy, dummy] 0x3000, .addSection dummy none,
      .setModules [dummy, dummy] 0x4000, .setModules [dummy, dummy, dummy] 0x5000, .addModule dummy none,
      .addModule dummy none] =
    ([(.setSections [dummy, dummy] 0x2000, .ok 0x2000),
      (.setSections [dummy, dummy, dummy] 0x3000, .ok 0x3000), (.addSection dummy none, .ok 0x3018),
      (.setModules [dummy, dummy] 0x4000, .ok 0x4000),
      (.setModules [dummy, dummy, dummy] 0x5000, .ok 0x5000), (.addModule dummy none, .ok 0x5018),
      (.addModule dummy none, .ok 0x5020)],
     ⟨dummy, 0x1000, some (List.replicate 32 0), some 0x3000, some (List.replicate 40 0), some 0x5000⟩) := by
  decide +kernel

-- configurator/x86_64/linux.rs, test_configure_linux_boot (a zero page with the header magic)
def zeroPage : List UInt8 :=
  encodeBy Layout.bootParams fun n =>
    if n = "hdr" then intFields Layout.setupHeader (fun f =>
      if f = "boot_flag" then 0xaa55 else if f = "header" then 0x53726448 else 0) |> encodeBy Layout.setupHeader
    else List.replicate ((Layout.bootParams.fields.lookup n).map (·.2)).get! 0

example : zeroPage.length = 4096 := by decide +kernel
example : (linuxWrite (.new zeroPage (0xffffff - 4096 + 1)) gm).1 = .err .zeroPagePastRamEnd ∧
    (linuxWrite (.new zeroPage 0x30000) gm).1 = .ok () := by decide +kernel

-- configurator/fdt.rs, test_configure_fdt_boot
example : (fdtWrite (.new (List.replicate 32 0) (0xffffff - 32 + 1)) gm).1 = .err .fdtPastRamEnd ∧
    (fdtWrite (.new (List.replicate 32 0) (0xffffff - 32)) gm).1 = .ok () := by decide +kernel

/-- `build_bootparams_common` of configurator/x86_64/pvh.rs, with `memmap_paddr`. -/
def startInfo : List UInt8 := HvmStartInfo.asSlice ⟨0x336ec578, 1, 0, 0, 0, 0, 0, 0x7000, 0, 0⟩
def memmapEntry : List UInt8 := HvmMemmapEntry.asSlice ⟨0x7000, 0, 1, 0⟩
def modlistEntry : List UInt8 := HvmModlistEntry.asSlice ⟨0x10000, 0x100, 0, 0⟩

-- configurator/x86_64/pvh.rs, test_configure_pvh_boot
example : (pvhWrite (.new startInfo 0x6000) gm).1 = .err .memmapTableMissing ∧
    (pvhWrite ((BootParams.new startInfo (0xffffff - 56 + 1)).setSections [memmapEntry] 0x7000) gm).1 =
      .err .startInfoPastRamEnd ∧
    (pvhWrite ((BootParams.new startInfo 0x100000).setSections [memmapEntry] (0xffffff - 24 + 1)) gm).1 =
      .err .memmapTablePastRamEnd ∧
    (pvhWrite (((BootParams.new startInfo 0x100000).setSections [memmapEntry] 0x7000).setModules
      [modlistEntry] 0x6040) gm).1 = .ok () := by decide +kernel

-- the example of src/lib.rs: load an ELF kernel, then write the PVH boot parameters
example :
    let r := elfLoad none none (on testElfnote)
    r.1.isOk = true ∧
    (pvhWrite ((BootParams.new startInfo 0x6000).setSections [memmapEntry] 0x7000) r.2.mem).1 = .ok () := by
  decide +kernel

/-! Error messages: test_error_messages of configurator/mod.rs, linux.rs, pvh.rs, fdt.rs -/

example : (ConfigError.linux .zeroPageSetup).display =
    "Boot Configurator: failed to configure boot parameter by Linux Boot protocol.".toList := by
  decide +kernel
example : (ConfigError.pvh .startInfoSetup).display =
    "Boot Configurator: failed to configure boot parameter by PVH.".toList := by decide +kernel
example : (ConfigError.fdt .writeFdtToMemory).display =
    "Boot Configurator: failed to configure boot parameter by FDT.".toList := by decide +kernel
example : (ConfigError.list .missingStartAddress).display =
    "Boot Configurator: boot parameter was specified without its starting address in guest memory.".toList := by
  decide +kernel
example : (ConfigError.list .overflow).display =
    "Boot Configurator: boot parameter address overflows.".toList := by decide +kernel
example : (ConfigError.list .invalidAddress).display =
    "Boot Configurator: boot parameter address precedes the starting address.".toList := by decide +kernel
example : LinuxError.zeroPagePastRamEnd.display =
    "Linux Boot Configurator: the zero page extends past the end of guest memory.".toList := by decide +kernel
example : LinuxError.zeroPageSetup.display =
    "Linux Boot Configurator: error writing to the zero page of guest memory.".toList := by decide +kernel
example : PvhError.memmapTableMissing.display =
    "PVH Boot Configurator: no memory map was passed to the boot configurator.".toList := by decide +kernel
example : PvhError.startInfoPastRamEnd.display =
    "PVH Boot Configurator: the hvm_start_info structure extends past the end of guest memory.".toList := by
  decide +kernel
example : FdtError.fdtPastRamEnd.display =
    "Device Tree Boot Configurator: FDT does not fit in guest memory.".toList := by decide +kernel

end LinuxLoader.Tests
