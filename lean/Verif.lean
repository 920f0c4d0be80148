import Verif.Basic
import Verif.X86
import Verif.Spec
import Verif.RefTables
import Verif.Contract
import Verif.Model.Stream
import Verif.Model.T1ha0
import Verif.Model.T1ha1
import Verif.Model.T1ha2
import Verif.Proofs.T1ha0
import Verif.Proofs.T1ha1
import Verif.Proofs.T1ha2
import Verif.Props.OneShot
import Verif.Props.Stream
import Verif.Props.Arith
import Verif.Props.Pairs
import Verif.Props.Local
import Verif.Props.Dispatch
import Verif.Props.Selfcheck
import Verif.Props.Collide
import Verif.Props.Oblivious
import Verif.Props.Reuse
import Verif.Props.Target
import Verif.Proofs.X86
import Verif.Props.Strict
import Verif.Props.Link
import Verif.Props.Padding
import Verif.Props.Race
import Verif.Props.Pointers
import Verif.Props.ReadCount
import Verif.Proofs.Tally
import Verif.Proofs.TallyFn
import Verif.Proofs.TallyStream
import Verif.Props.Once
import Verif.Props.Distinct
import Verif.Model.Layout
import Verif.Props.Layout
import Verif.Proofs.Avalanche
import Verif.Props.Avalanche
import Verif.Proofs.Flood
import Verif.Props.Flood
import Verif.Proofs.Differ
import Verif.Proofs.DifferAes
import Verif.Proofs.DifferTwo
import Verif.Proofs.Cover
import Verif.Proofs.Cover32
import Verif.Proofs.CoverAes
import Verif.Props.Differ
import Verif.Props.Cover
import Verif.Model.Tool
import Verif.Proofs.Tool
import Verif.Proofs.Lines
import Verif.Proofs.ToolFuncs
import Verif.Props.Tool
import Verif.Props.ToolFuncs
import Verif.Props.ToolStrings
import Verif.Props.ToolVerify
import Verif.Model.Mera
import Verif.Clocks
import Verif.Proofs.Mera
import Verif.Proofs.MeraJitter
import Verif.Props.Mera
import Verif.Model.Clock
import Verif.ClockTable
import Verif.Proofs.Clock
import Verif.Proofs.ClockRead
import Verif.Props.Clock
import Verif.SpecOthers
import Verif.ContractOthers
import Verif.Model.Stadtx
import Verif.Model.Wyhash
import Verif.Model.Highway
import Verif.Model.HighwayVerify
import Verif.Model.OthersTables
import Verif.Proofs.Others
import Verif.Proofs.Stadtx
import Verif.Proofs.Wyhash
import Verif.Proofs.HighwayPure
import Verif.Proofs.Highway
import Verif.Proofs.HighwayRun
import Verif.Proofs.HighwayCat
import Verif.X86Simd
import Verif.Model.HighwaySimd
import Verif.Proofs.HighwaySimdPure
import Verif.Proofs.HighwaySimd
import Verif.Proofs.HighwaySimdBuffer
import Verif.Proofs.HighwaySimdCat
import Verif.Proofs.HighwayVerify
import Verif.Proofs.OtherValues
import Verif.Props.OthersApi
import Verif.Props.Others
import Verif.Props.HighwayCat
import Verif.Props.OthersVerify
import Verif.Props.HighwaySimd
import Verif.SpecXxhash
import Verif.Model.Xxhash
import Verif.Proofs.XxhashRead
import Verif.Proofs.Xxhash32
import Verif.Proofs.Xxhash64
import Verif.Proofs.XxhashCat
import Verif.Proofs.XxhashCat64
import Verif.Proofs.XxhashFail
import Verif.Proofs.XxhashCanonical
import Verif.Props.Xxhash
import Verif.SpecXxh3
import Verif.Model.Xxh3
import Verif.Proofs.Xxh3Basic
import Verif.Proofs.Xxh3Short
import Verif.Proofs.Xxh3Middle
import Verif.Proofs.Xxh3Long
import Verif.Proofs.Xxh3Fail
import Verif.Props.Xxh3
import Verif.Proofs.Xxh3Cat
import Verif.Proofs.Xxh3Digest
import Verif.Props.Xxh3Cat
import Verif.SpecXxh3Secret
import Verif.Proofs.Xxh3Secret
import Verif.Props.Xxh3Secret
import Verif.Props.StadtxSeeds
import Verif.Model.Xxh3Alloc
import Verif.Props.Xxh3Alloc
import Verif.SpecWySecret
import Verif.Model.WySecret
import Verif.Proofs.Popcount
import Verif.Proofs.WySecret
import Verif.Proofs.WySecretExample
import Verif.Props.WySecret
import Verif.PowerSimd
import Verif.Model.HighwayVsx
import Verif.Proofs.HighwayVsx
import Verif.Props.HighwayVsx
import Verif.Model.WyFloat
import Verif.Props.WyFloat
import Verif.ArmSimd
import Verif.Model.Xxh3Vector
import Verif.Proofs.Xxh3Vector
import Verif.Props.Xxh3Vector
import Verif.Model.HighwayArch
import Verif.Props.HighwayArch
import Verif.Props.Twin
import Verif.Props.SeedShift
import Verif.Props.Symmetry
import Verif.Props.HighwayPower
import Verif.Props.SeedRecover
import Verif.Props.XxhSeed
import Verif.Props.LastWord
import Verif.Props.WySeed
import Verif.Props.FirstWord
import Verif.Props.XxhWord
import Verif.Props.XxhWord64
import Verif.Props.Xxh3Inj
import Verif.Props.Xxh3Seed
