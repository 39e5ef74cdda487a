import Verif.Model.AllTokens
import Verif.Model.AutoVersion
import Verif.Model.BufioScanner
import Verif.Model.CharProps
import Verif.Model.Concurrent
import Verif.Model.ConformanceTest
import Verif.Model.Cost
import Verif.Model.DecodeRune
import Verif.Model.GenMain
import Verif.Model.GenPrint
import Verif.Model.GenTable
import Verif.Model.Go
import Verif.Model.GoBytes
import Verif.Model.Lookup
import Verif.Model.Machine
import Verif.Model.Readers
import Verif.Model.Report
import Verif.Model.Scan
import Verif.Model.StreamCost
import Verif.Model.TableData
import Verif.Model.TableTest
import Verif.Model.Text
import Verif.Model.TrimSpace
import Verif.Model.UCDParse
import Verif.Model.UCDSlices
import Verif.Text.AutoAgnosticGo
import Verif.Text.AutoDocGo
import Verif.Text.AutoMod
import Verif.Text.AutoUnicode15Go
import Verif.Text.AutoUnicode17Go
import Verif.Text.BreakProperty
import Verif.Text.BreakTest
import Verif.Text.DerivedCoreProperties
import Verif.Text.EmojiData
import Verif.Text.GenerateGo
import Verif.Text.GentableGo
import Verif.Text.GraphemeClustersGo
import Verif.Text.PropertiesGo
import Verif.Text.PropertyTableGo
import Verif.Text.PropertyTreeGo
import Verif.Text.RepoMod
import Verif.Text.StateGo
import Verif.Text.TableText
import Verif.Text.TestdataScanGo
import Verif.Text.UcdScanGo
import Verif.GoLang.Attr
import Verif.GoLang.Eval
import Verif.GoLang.Lexer
import Verif.GoLang.Package
import Verif.GoLang.Parser
import Verif.GoLang.Program
import Verif.GoLang.Quote
import Verif.GoLang.Syntax
import Verif.GoMem.Attr
import Verif.GoMem.Eval
import Verif.GoMem.Parser
import Verif.GoMem.Program
import Verif.GoMem.Quote
import Verif.GoMem.Syntax
import Verif.Spec.AutoSource
import Verif.Spec.BuildSource
import Verif.Spec.Bytes
import Verif.Spec.Canonical
import Verif.Spec.Consistent
import Verif.Spec.Emoji
import Verif.Spec.EmojiData
import Verif.Spec.GenFiles
import Verif.Spec.GenMain
import Verif.Spec.GenSource
import Verif.Spec.GenTable
import Verif.Spec.GoSource
import Verif.Spec.Grammar
import Verif.Spec.MainSource
import Verif.Spec.Names
import Verif.Spec.Report
import Verif.Spec.Runes
import Verif.Spec.Segmentation
import Verif.Spec.Source
import Verif.Spec.Streaming
import Verif.Spec.TableTest
import Verif.Spec.TestLine
import Verif.Spec.TestSource
import Verif.Spec.UAX29
import Verif.Spec.UCD
import Verif.Spec.UCDData
import Verif.Spec.UCDFormat
import Verif.Spec.UcdSource
import Verif.Proofs.AllTokens
import Verif.Proofs.Ascii
import Verif.Proofs.AutoSource
import Verif.Proofs.BreakB
import Verif.Proofs.BufioScanner
import Verif.Proofs.Canonical
import Verif.Proofs.Concurrent
import Verif.Proofs.ConformanceTest
import Verif.Proofs.Consistent
import Verif.Proofs.Count
import Verif.Proofs.Cuts
import Verif.Proofs.DataFiles
import Verif.Proofs.DataText
import Verif.Proofs.Disjoint
import Verif.Proofs.Editing
import Verif.Proofs.Emoji
import Verif.Proofs.Endless
import Verif.Proofs.GenCompact
import Verif.Proofs.GenCorrect
import Verif.Proofs.GenData
import Verif.Proofs.GenFiles
import Verif.Proofs.GenFind
import Verif.Proofs.GenLimit
import Verif.Proofs.GenLookup
import Verif.Proofs.GenMain
import Verif.Proofs.GenOps
import Verif.Proofs.GenPrint
import Verif.Proofs.GenRender
import Verif.Proofs.GenResult
import Verif.Proofs.GenShipped
import Verif.Proofs.GenSim
import Verif.Proofs.GenSize
import Verif.Proofs.GenTree
import Verif.Proofs.GenUCD
import Verif.Proofs.GenZero
import Verif.Proofs.GoBytes
import Verif.Proofs.GoExec
import Verif.Proofs.GoGlobals
import Verif.Proofs.GoLookup
import Verif.Proofs.GoLookups
import Verif.Proofs.GoNames
import Verif.Proofs.GoScan
import Verif.Proofs.GoTables
import Verif.Proofs.Grammar
import Verif.Proofs.Local
import Verif.Proofs.Lookup
import Verif.Proofs.Machine
import Verif.Proofs.MemBuild
import Verif.Proofs.MemBuildTree
import Verif.Proofs.MemBuildTree2
import Verif.Proofs.MemBuildTree3
import Verif.Proofs.MemBuildTree4
import Verif.Proofs.MemBuildTree5
import Verif.Proofs.MemBuildTree6
import Verif.Proofs.MemBuildTree7
import Verif.Proofs.MemBytes
import Verif.Proofs.MemCompact
import Verif.Proofs.MemCompact2
import Verif.Proofs.MemCompact3
import Verif.Proofs.MemExec
import Verif.Proofs.MemGlobals
import Verif.Proofs.MemHeap
import Verif.Proofs.MemKeys
import Verif.Proofs.MemMain
import Verif.Proofs.MemMain2
import Verif.Proofs.MemMain3
import Verif.Proofs.MemMain4
import Verif.Proofs.MemOps
import Verif.Proofs.MemQuiet
import Verif.Proofs.MemQuiet2
import Verif.Proofs.MemSource
import Verif.Proofs.MemTest
import Verif.Proofs.MemTest2
import Verif.Proofs.MemTest3
import Verif.Proofs.MemTest4
import Verif.Proofs.MemTest5
import Verif.Proofs.MemTree
import Verif.Proofs.MemUcd
import Verif.Proofs.MemUcd2
import Verif.Proofs.MemUcd3
import Verif.Proofs.MemUcd4
import Verif.Proofs.Readers
import Verif.Proofs.Report
import Verif.Proofs.Resync
import Verif.Proofs.Retain
import Verif.Proofs.Rules
import Verif.Proofs.Runes
import Verif.Proofs.Scan
import Verif.Proofs.ScannerTotal
import Verif.Proofs.Segmentation
import Verif.Proofs.Source
import Verif.Proofs.SourceTables
import Verif.Proofs.SplitCongr
import Verif.Proofs.StreamCost
import Verif.Proofs.StreamMem
import Verif.Proofs.Streaming
import Verif.Proofs.Table
import Verif.Proofs.TableNum
import Verif.Proofs.TableTest
import Verif.Proofs.TableTestFiles
import Verif.Proofs.TableText
import Verif.Proofs.TestDataParse
import Verif.Proofs.TestFile
import Verif.Proofs.TestLine
import Verif.Proofs.TokenLengths
import Verif.Proofs.Tokens
import Verif.Proofs.TrimSpace
import Verif.Proofs.UCDParse
import Verif.Proofs.UCDSlices
import Verif.Proofs.Undecided
import Verif.Props.AutoSource
import Verif.Props.AutoVersion
import Verif.Props.BuildSource
import Verif.Props.Canonical
import Verif.Props.Committed
import Verif.Props.Concurrent
import Verif.Props.Conformance
import Verif.Props.ConformanceTest
import Verif.Props.Cost
import Verif.Props.Editing
import Verif.Props.Emoji
import Verif.Props.GenFiles
import Verif.Props.GenMain
import Verif.Props.GenPrint
import Verif.Props.GenSource
import Verif.Props.GenTable
import Verif.Props.Grammar
import Verif.Props.Lookup
import Verif.Props.Machine
import Verif.Props.MainSource
import Verif.Props.Names
import Verif.Props.Prompt
import Verif.Props.Resync
import Verif.Props.Rules
import Verif.Props.Runes
import Verif.Props.Source
import Verif.Props.Split
import Verif.Props.StreamCost
import Verif.Props.StreamMem
import Verif.Props.Streaming
import Verif.Props.TableTest
import Verif.Props.TestSource
import Verif.Props.UCDParse
import Verif.Props.UCDSlices
import Verif.Props.UcdSource
import Verif.Tests.Unit
