/-!
# Conditional compilation

The crate is compiled with a set of features and for a target architecture; `#[cfg(...)]` attributes say
which items exist. Here the items that carry such attributes (and the unconditional ones they refer to) are
listed with their attributes, the module they are in, and the items their code refers to. The bodies are
modelled elsewhere. Test code, benches and documentation attributes are left out.
-/

namespace LinuxLoader

/-- The features of the crate, /repo/Cargo.toml:23-27. With `src/lib.rs:125-133` they are all that conditions
of the sources mention besides the architecture. -/
inductive Feature where
  | elf | bzimage | pe
deriving DecidableEq, Repr

/-- The architectures that the sources mention, src/lib.rs:130, src/loader/pe/mod.rs:75, 99. -/
inductive Target where
  | x86 | x86_64 | aarch64 | riscv64
deriving DecidableEq, Repr

/-- What `#[cfg]` attributes can ask, src/lib.rs:130-133: features that are set, and the architecture
(`none`: one that the sources do not mention). -/
structure Config where
  has : Feature → Bool
  target : Option Target

/-- The conditions that occur, e.g. src/loader/mod.rs:34-62. There is no `not` outside the documentation. -/
inductive Cond where
  | feature (f : Feature)
  | arch (t : Target)
  | all (a b : Cond)
  | any (a b : Cond)
  | always

/-- The condition is true. For `#[cfg]` at src/loader/mod.rs:34-62 and elsewhere. -/
def Cond.holds (c : Config) : Cond → Bool
  | .feature f => c.has f
  | .arch t => c.target == some t
  | .all a b => a.holds c && b.holds c
  | .any a b => a.holds c || b.holds c
  | .always => true

/-- What Cargo passes to the compiler when the features `req` are asked for, /repo/Cargo.toml:23-27:
`bzimage = ["elf"]`, `pe = ["elf"]`. (The sources as in src/lib.rs:125-133 see the result only.) -/
def cargoFeatures (req : Feature → Bool) : Feature → Bool
  | .elf => req .elf || req .bzimage || req .pe
  | .bzimage => req .bzimage
  | .pe => req .pe

/-- `any(target_arch = "x86", target_arch = "x86_64")`, src/lib.rs:130 and elsewhere. -/
def condX86 : Cond := .any (.arch .x86) (.arch .x86_64)

/-- `any(target_arch = "aarch64", target_arch = "riscv64")`, src/configurator/mod.rs:30 and elsewhere. -/
def condArm : Cond := .any (.arch .aarch64) (.arch .riscv64)

/-- Variants of the two error enumerations that carry a condition, src/loader/mod.rs:52-62,
src/configurator/mod.rs:39-47. -/
inductive Variant where
  | bzimage | elf | pe | linux | pvh | fdt
deriving DecidableEq, Repr

/-- Items of the crate, and places in their code that carry a condition of their own. Files and lines: see
`Item.gate`; e.g. src/loader/mod.rs:25-47. -/
inductive Item where
  -- modules
  | cmdline | loader | configurator | configuratorX86 | loaderGen | bootparam | elfGen | startInfo
  | peMod | elfMod | bzMod | linuxMod | pvhMod | fdtMod
  -- loader/mod.rs
  | loaderError | loaderResult | kernelLoader | loadCmdline | reexportBootparam
  | setupHeaderField | pvhCapField | fromElf | fromBz | fromPe | bytesSetupHeader | bytesBootParams
  -- loaders
  | elfLoader | bzLoader | peLoader | loadDtb | armHeader | riscvHeader | bytesArm | bytesRiscv
  | peLoadArm | peLoadRiscv
  -- configurator/mod.rs
  | configError | bootConfigurator | bootParamsList | linuxConfigurator | pvhConfigurator | fdtConfigurator
  | bytesStartInfo
  -- variants of the error enumerations, and the arms for them
  | variant (v : Variant) | displayArm (v : Variant) | sourceArm (v : Variant)
  | fromLinux | fromPvh | fromFdt
deriving DecidableEq, Repr

/-- The condition of a variant, src/loader/mod.rs:53, 57, 61, src/configurator/mod.rs:40, 43, 46. -/
def Variant.gate : Variant → Cond
  | .bzimage => .all (.feature .bzimage) condX86
  | .elf => .all (.feature .elf) condX86
  | .pe => .all (.feature .pe) condArm
  | .linux => condX86
  | .pvh => condX86
  | .fdt => condArm

/-- The condition of the arm for a variant in `Display::fmt`, src/loader/mod.rs:85, 87, 89,
src/configurator/mod.rs:61, 63, 65. -/
def displayGate : Variant → Cond
  | .bzimage => .all (.feature .bzimage) condX86
  | .elf => .all (.feature .elf) condX86
  | .pe => .all (.feature .pe) condArm
  | .linux => condX86
  | .pvh => condX86
  | .fdt => condArm

/-- The condition of the arm for a variant in `Error::source`, src/loader/mod.rs:104, 106, 108,
src/configurator/mod.rs:83, 85, 87. -/
def sourceGate : Variant → Cond
  | .bzimage => .all (.feature .bzimage) condX86
  | .elf => .all (.feature .elf) condX86
  | .pe => .all (.feature .pe) condArm
  | .linux => condX86
  | .pvh => condX86
  | .fdt => condArm

/-- The attributes of an item itself: at the line given, and at the head of its file. src/lib.rs,
src/loader/mod.rs, src/configurator/mod.rs and the others named beside each item. -/
def Item.gate : Item → Cond
  | .cmdline => .always                                     -- src/lib.rs:125
  | .loader => .always                                      -- src/lib.rs:127
  | .configurator =>                                        -- src/lib.rs:126, src/configurator/mod.rs:19
    .any (.feature .elf) (.any (.feature .pe) (.feature .bzimage))
  | .configuratorX86 => condX86                             -- src/configurator/mod.rs:25, x86_64/mod.rs:14
  | .loaderGen => condX86                                   -- src/lib.rs:130, src/loader_gen/mod.rs:12, x86_64/mod.rs:12
  | .bootparam => .always                                   -- src/loader_gen/x86_64/mod.rs:20
  | .elfGen => .feature .elf                                -- src/loader_gen/x86_64/mod.rs:22
  | .startInfo => .feature .elf                             -- src/loader_gen/x86_64/mod.rs:25
  | .peMod => .all condArm (.feature .pe)                   -- src/loader/mod.rs:34
  | .elfMod =>                                              -- src/loader/mod.rs:39, src/loader/elf/mod.rs:13
    .all (.all condX86 (.feature .elf)) (.all (.feature .elf) condX86)
  | .bzMod =>                                               -- src/loader/mod.rs:44, src/loader/bzimage/mod.rs:12
    .all (.all condX86 (.feature .bzimage)) (.all (.feature .bzimage) condX86)
  | .linuxMod => .always                                    -- src/configurator/x86_64/mod.rs:16
  | .pvhMod => .any (.feature .elf) (.feature .bzimage)     -- src/configurator/x86_64/mod.rs:17, pvh.rs:15
  | .fdtMod => condArm                                      -- src/configurator/mod.rs:30
  | .loaderError => .always                                 -- src/loader/mod.rs:51
  | .loaderResult => .always                                -- src/loader/mod.rs:147
  | .kernelLoader => .always                                -- src/loader/mod.rs:165
  | .loadCmdline => .always                                 -- src/loader/mod.rs:222
  | .reexportBootparam => condX86                           -- src/loader/mod.rs:29
  | .setupHeaderField => condX86                            -- src/loader/mod.rs:155
  | .pvhCapField => .all (.feature .elf) condX86            -- src/loader/mod.rs:160
  | .fromElf => .all (.feature .elf) condX86                -- src/loader/mod.rs:120
  | .fromBz => .all (.feature .bzimage) condX86             -- src/loader/mod.rs:127
  | .fromPe => .all (.feature .pe) condArm                  -- src/loader/mod.rs:134
  | .bytesSetupHeader => condX86                            -- src/loader/mod.rs:25, 186
  | .bytesBootParams => condX86                             -- src/loader/mod.rs:25, 191
  | .elfLoader => .always                                   -- src/loader/elf/mod.rs:138, 164
  | .bzLoader => .always                                    -- src/loader/bzimage/mod.rs:66, 68
  | .peLoader => .always                                    -- src/loader/pe/mod.rs:24, 124
  | .loadDtb => condArm                                     -- src/loader/pe/mod.rs:217
  | .armHeader => .arch .aarch64                            -- src/loader/pe/mod.rs:75
  | .riscvHeader => .arch .riscv64                          -- src/loader/pe/mod.rs:99
  | .bytesArm => .arch .aarch64                             -- src/loader/pe/mod.rs:94
  | .bytesRiscv => .arch .riscv64                           -- src/loader/pe/mod.rs:119
  | .peLoadArm => .arch .aarch64                            -- src/loader/pe/mod.rs:149, 160, 169
  | .peLoadRiscv => .arch .riscv64                          -- src/loader/pe/mod.rs:151, 164, 175
  | .configError => .always                                 -- src/configurator/mod.rs:38
  | .bootConfigurator => .always                            -- src/configurator/mod.rs:109
  | .bootParamsList => .always                              -- src/configurator/mod.rs:131
  | .linuxConfigurator => .always                           -- src/configurator/x86_64/linux.rs:22
  | .pvhConfigurator => .always                             -- src/configurator/x86_64/pvh.rs:25
  | .fdtConfigurator => .always                             -- src/configurator/fdt.rs:43
  | .bytesStartInfo => .always                              -- src/configurator/x86_64/pvh.rs:80-88
  | .variant v => v.gate
  | .displayArm v => displayGate v
  | .sourceArm v => sourceGate v
  | .fromLinux => .always                                   -- src/configurator/x86_64/linux.rs:47
  | .fromPvh => .always                                     -- src/configurator/x86_64/pvh.rs:72
  | .fromFdt => .always                                     -- src/configurator/fdt.rs:36

/-- The enumeration that a variant belongs to, src/loader/mod.rs:51, src/configurator/mod.rs:38. -/
def Variant.enumeration : Variant → Item
  | .bzimage => .loaderError
  | .elf => .loaderError
  | .pe => .loaderError
  | .linux => .configError
  | .pvh => .configError
  | .fdt => .configError

/-- The modules around an item, innermost first, src/lib.rs:125-131, src/loader/mod.rs:34-45,
src/configurator/mod.rs:25-31, src/configurator/x86_64/mod.rs:16-17, src/loader_gen/x86_64/mod.rs:20-26. -/
def Item.inside : Item → List Item
  | .cmdline | .loader | .configurator | .loaderGen => []
  | .configuratorX86 | .fdtMod => [.configurator]
  | .bootparam | .elfGen | .startInfo => [.loaderGen]
  | .peMod | .elfMod | .bzMod => [.loader]
  | .linuxMod | .pvhMod => [.configuratorX86, .configurator]
  | .loaderError | .loaderResult | .kernelLoader | .loadCmdline | .reexportBootparam | .setupHeaderField
  | .pvhCapField | .fromElf | .fromBz | .fromPe | .bytesSetupHeader | .bytesBootParams => [.loader]
  | .elfLoader => [.elfMod, .loader]
  | .bzLoader => [.bzMod, .loader]
  | .peLoader | .loadDtb | .armHeader | .riscvHeader | .bytesArm | .bytesRiscv | .peLoadArm | .peLoadRiscv =>
    [.peMod, .loader]
  | .configError | .bootConfigurator | .bootParamsList => [.configurator]
  | .linuxConfigurator | .fromLinux => [.linuxMod, .configuratorX86, .configurator]
  | .pvhConfigurator | .bytesStartInfo | .fromPvh => [.pvhMod, .configuratorX86, .configurator]
  | .fdtConfigurator | .fromFdt => [.fdtMod, .configurator]
  | .variant v | .displayArm v | .sourceArm v =>
    match v.enumeration with
    | .loaderError => [.loader]
    | _ => [.configurator]

/-- The module in which the error type carried by a variant is defined, src/loader/mod.rs:54, 58, 62,
src/configurator/mod.rs:41, 44, 47. -/
def Variant.home : Variant → Item
  | .bzimage => .bzMod
  | .elf => .elfMod
  | .pe => .peMod
  | .linux => .linuxMod
  | .pvh => .pvhMod
  | .fdt => .fdtMod

/-- The items that the code of an item refers to: imports, types, fields, variants and trait implementations.
Files and lines beside each; src/loader/mod.rs and the others. -/
def Item.uses : Item → List Item
  | .loader => [.cmdline]                                                       -- src/loader/mod.rs:32
  | .loadCmdline => [.cmdline, .loaderError]                                    -- src/loader/mod.rs:222-250
  | .reexportBootparam => [.bootparam]                                          -- src/loader/mod.rs:30
  | .setupHeaderField => [.reexportBootparam, .bootparam]                       -- src/loader/mod.rs:156
  | .pvhCapField => [.elfMod]                                                   -- src/loader/mod.rs:161
  | .kernelLoader => [.loaderResult, .loaderError]                              -- src/loader/mod.rs:165-184
  | .fromElf => [.elfMod, .variant .elf]                                        -- src/loader/mod.rs:121-124
  | .fromBz => [.bzMod, .variant .bzimage]                                      -- src/loader/mod.rs:128-131
  | .fromPe => [.peMod, .variant .pe]                                           -- src/loader/mod.rs:135-138
  | .bytesSetupHeader => [.reexportBootparam, .bootparam]                       -- src/loader/mod.rs:189
  | .bytesBootParams => [.reexportBootparam, .bootparam]                        -- src/loader/mod.rs:194
  | .elfMod => [.loaderError, .kernelLoader, .loaderResult, .elfGen, .startInfo] -- src/loader/elf/mod.rs:24-26
  | .elfLoader =>                                                               -- src/loader/elf/mod.rs:164-300
    [.kernelLoader, .loaderResult, .setupHeaderField, .pvhCapField, .fromElf, .elfGen]
  | .bzMod => [.reexportBootparam, .loaderError, .kernelLoader, .loaderResult]  -- src/loader/bzimage/mod.rs:21-23
  | .bzLoader =>                                                                -- src/loader/bzimage/mod.rs:68-184
    [.kernelLoader, .loaderResult, .setupHeaderField, .bytesSetupHeader, .fromBz, .reexportBootparam]
  | .peMod => [.loaderError, .kernelLoader, .loaderResult]                      -- src/loader/pe/mod.rs:21
  | .peLoader => [.kernelLoader, .loaderResult, .fromPe]                        -- src/loader/pe/mod.rs:124-207
  | .peLoadArm => [.armHeader, .bytesArm, .fromPe]                              -- src/loader/pe/mod.rs:149-173
  | .peLoadRiscv => [.riscvHeader, .bytesRiscv, .fromPe]                        -- src/loader/pe/mod.rs:151-176
  | .bytesArm => [.armHeader]                                                   -- src/loader/pe/mod.rs:97
  | .bytesRiscv => [.riscvHeader]                                               -- src/loader/pe/mod.rs:122
  | .loadDtb => [.fromPe]                                                       -- src/loader/pe/mod.rs:218-236
  | .bootConfigurator => [.bootParamsList, .configError]                        -- src/configurator/mod.rs:124
  | .bootParamsList => [.configError]                                           -- src/configurator/mod.rs:274-420
  | .linuxMod => [.bootConfigurator, .bootParamsList, .configError]             -- src/configurator/x86_64/linux.rs:17
  | .linuxConfigurator => [.bootConfigurator, .bootParamsList, .fromLinux]      -- src/configurator/x86_64/linux.rs:53-112
  | .fromLinux => [.variant .linux]                                             -- src/configurator/x86_64/linux.rs:47-51
  | .pvhMod => [.bootConfigurator, .bootParamsList, .configError, .startInfo]   -- src/configurator/x86_64/pvh.rs:19-20
  | .pvhConfigurator => [.bootConfigurator, .bootParamsList, .fromPvh]          -- src/configurator/x86_64/pvh.rs:90-181
  | .fromPvh => [.variant .pvh]                                                 -- src/configurator/x86_64/pvh.rs:72-76
  | .bytesStartInfo => [.startInfo]                                             -- src/configurator/x86_64/pvh.rs:80-88
  | .fdtMod => [.bootConfigurator, .bootParamsList, .configError]               -- src/configurator/fdt.rs:11
  | .fdtConfigurator => [.bootConfigurator, .bootParamsList, .fromFdt]          -- src/configurator/fdt.rs:45-93
  | .fromFdt => [.variant .fdt]                                                 -- src/configurator/fdt.rs:36-40
  | .variant v => [v.home]                                  -- src/loader/mod.rs:54, 58, 62, src/configurator/mod.rs:41, 44, 47
  | .displayArm v => [.variant v]                           -- src/loader/mod.rs:86, 88, 90, src/configurator/mod.rs:62, 64, 66
  | .sourceArm v => [.variant v]                            -- src/loader/mod.rs:105, 107, 109, src/configurator/mod.rs:84, 86, 88
  | _ => []

/-- The item is compiled: its own attributes and those of the modules around it hold. As for `#[cfg]` at
src/lib.rs:125-133. -/
def Item.present (c : Config) (i : Item) : Bool := i.gate.holds c && i.inside.all fun m => m.gate.holds c

end LinuxLoader
