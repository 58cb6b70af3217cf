import Verif.Props.CmdlineBuild
import Verif.Props.CmdlineParse
import Verif.Props.CmdlineKernel
import Verif.Spec.CmdlineBatch
import Verif.Props.CmdlineBatch
import Verif.Props.LoadCmdline
import Verif.Props.BootParams
import Verif.Props.Config
import Verif.Props.Structs
import Verif.Props.Elf
import Verif.Spec.Images
import Verif.Lemmas.Images
import Verif.Lemmas.Pe
import Verif.Props.BzImage
import Verif.Props.Pe
import Verif.Props.Boot
import Verif.Props.ZeroPage
import Verif.Props.Guest
import Verif.Props.Display
import Verif.Props.Messages
import Verif.Props.Layouts
import Verif.Props.MemoryUse
import Verif.Props.Release
import Verif.Model.RegionWalk
import Verif.Lemmas.RegionWalk
import Verif.Props.Regions
import Verif.Model.RawIo
import Verif.Model.IoLoaders
import Verif.Spec.RawIo
import Verif.Lemmas.RawIo
import Verif.Lemmas.RawLoaders
import Verif.Props.RawIo
import Verif.Tests.Cmdline
import Verif.Tests.Loaders
import Verif.Tests.Configurators
import Verif.Props.Work
import Verif.Props.Build
import Verif.Props.WorkTight
import Verif.Props.WorkBytes
import Verif.Props.LoaderGen
import Verif.Props.ImageGuest
import Verif.Props.Probe
import Verif.Props.ByteStr
import Verif.Props.Concurrent
import Verif.Props.Footprint
import Verif.Props.AnyReader
import Verif.Props.IoErrors
import Verif.Props.Incremental
import Verif.Props.SameProgram
import Verif.Spec.Truncated
import Verif.Props.Truncated
import Verif.Props.Entry
import Verif.Model.AsRef
import Verif.Props.AsRef
import Verif.Spec.HostMemory
import Verif.Props.HostMemory
import Verif.Spec.VirtioDriver
import Verif.Props.VirtioDriver
import Verif.Spec.KernelView
import Verif.Props.KernelView
import Verif.Spec.Capacity
import Verif.Props.Capacity
import Verif.Spec.ElfKinds
import Verif.Props.ElfKinds
import Verif.Props.CmdlineLimit
import Verif.Model.Types
import Verif.Spec.Padding
import Verif.Props.Padding
import Verif.Props.Rendered
import Verif.Props.SetupHeader
import Verif.Props.MemImage
import Verif.Props.Constants
import Verif.Spec.Payload
import Verif.Props.Payload
import Verif.Props.BootOrder
import Verif.Props.PlaceBlob
import Verif.Spec.Contract
import Verif.Props.Contract
import Verif.Model.Values
import Verif.Spec.ZeroPageDeep
import Verif.Props.ZeroPageDeep
import Verif.Props.Alignments
import Verif.Props.Assign
import Verif.Spec.HeaderDoc
import Verif.Props.HeaderIo
import Verif.Props.Beginning
import Verif.Props.BeginningExact
import Verif.Props.Retry
import Verif.Tests.Docs
import Verif.Spec.Position
import Verif.Props.Position
import Verif.Model.Cfg
import Verif.Spec.Cfg
import Verif.Props.Cfg
import Verif.Model.Debug
import Verif.Lemmas.Debug
import Verif.Spec.Log
import Verif.Props.Debug
import Verif.Model.ByteOrder
import Verif.Props.ByteOrder
import Verif.Model.ElfTypes
import Verif.Props.DebugElf
import Verif.Tests.Assertions
import Verif.Model.Panicking
import Verif.Spec.Panicking
import Verif.Lemmas.Panicking
import Verif.Props.Panicking
import Verif.Spec.Complete
import Verif.Lemmas.Complete
import Verif.Props.Complete
import Verif.Spec.CompleteBuild
import Verif.Props.CompleteBuild
import Verif.Spec.CompleteBoot
import Verif.Props.CompleteBoot
