import Verif.Lemmas.Bc1
import Verif.Lemmas.Intrinsics
import Verif.Props.Color
import Verif.Props.Batch
import Verif.Props.BatchPtr
import Verif.Props.Bc1
import Verif.Props.Endian
import Verif.Props.EndianExact
import Verif.Props.Bc2
import Verif.Props.Bc3
import Verif.Props.Split
import Verif.Props.Auto
import Verif.Props.Safe
import Verif.Props.DebugAsserts
import Verif.Props.DebugAuto
import Verif.Props.NormDebugEmpty
import Verif.Props.Embed
import Verif.Props.Builders
import Verif.Props.FileFormats
import Verif.Props.DdsParse
import Verif.Props.Dds
import Verif.Props.Bc7
import Verif.Props.Decode
import Verif.Props.Normalize
import Verif.Props.NormExact
import Verif.Props.NormTransform
import Verif.Props.DdsTotal
import Verif.Props.DdsPanics
import Verif.Props.DdsImage
import Verif.Props.FileIo
import Verif.Props.FileIoExact
import Verif.Props.Cli
import Verif.Props.CliNested
import Verif.Props.CliRoundtrip
import Verif.Props.CApiRoundtrip
import Verif.Props.CacheFiles
import Verif.Props.CacheDisk
import Verif.Props.DebugRoundtrip
import Verif.Props.DebugFormat
import Verif.Props.DebugStats
import Verif.Props.DebugStatsNorm
import Verif.Props.FileCompare
import Verif.Props.DebugEndian
import Verif.Props.EndianCommand
import Verif.Props.EndianVerdict
import Verif.Props.Presets
import Verif.Props.Bench
import Verif.Model.DebugBench
import Verif.Props.DebugBench
import Verif.Props.BenchCommands
import Verif.Props.BenchSearch
import Verif.Props.BenchStats
import Verif.Model.Commands
import Verif.Props.Commands
import Verif.Model.Fuzz
import Verif.Props.Fuzz
import Verif.Props.Alloc
import Verif.Props.AllocFaults
import Verif.Props.Locality
import Verif.Props.AutoBlind
import Verif.Model.Checked
import Verif.Props.Checked
import Verif.Model.StatsCommand
import Verif.Props.StatsCommand
import Verif.Model.DdsDebug
import Verif.Props.DdsDebug
import Verif.Props.DdsBuilds
import Verif.Conformance.Basic
import Verif.Conformance.Dds
import Verif.Conformance.Blocks
import Verif.Conformance.Api
import Verif.Model.NormDebug
import Verif.Props.NormDebug
import Verif.Props.AutoScale
import Verif.Model.CacheLock
import Verif.Props.CacheLock
import Verif.Lemmas.Causal
import Verif.Props.StatsProgress
import Verif.Props.HugeFiles
import Verif.Props.AutoQuestions
import Verif.Props.DdsDamage
import Verif.Props.Rearrange
import Verif.Props.Pieces
import Verif.Props.NormCanon
import Verif.Props.Reproducible
import Verif.Props.WrongSettings
import Verif.Props.Again
import Verif.Props.Distinct
import Verif.Props.DdsWork
import Verif.Props.Isa
import Verif.Props.Surfaces
import Verif.Props.Grey
import Verif.Props.COwnership
import Verif.Props.DryRunCommands
import Verif.Props.Zstd
import Verif.Props.NormCalls
import Verif.Props.Container
import Verif.Props.ColourPart
import Verif.Props.Stages
import Verif.Props.NormSteps
import Verif.Props.InPlace
import Verif.Props.Restart
import Verif.Props.CApiThreads
import Verif.Props.CApiAuto
import Verif.Props.DryRunErrors
import Verif.Props.Brightness
import Verif.Props.VariantBits
import Verif.Props.VariantFiles
import Verif.Props.Repeats
import Verif.Props.RepeatsFiles
import Verif.Props.StoredAlike
import Verif.Props.StoredFiles
import Verif.Props.AutoBlindFiles
import Verif.Props.GreyFiles
import Verif.Props.WrongTag
import Verif.Props.LookAlike
import Verif.Props.MemFaults
