import Verif.Model.DemoFile
import Verif.Model.Errors
import Verif.Model.Extract
import Verif.Model.Fallback
import Verif.Model.FallbackPrivate
import Verif.Model.FallbackPublic
import Verif.Model.Files
import Verif.Model.Gen
import Verif.Model.Go
import Verif.Model.GoCli
import Verif.Model.GoDemo
import Verif.Model.GoLang
import Verif.Model.GoLex
import Verif.Model.GoMem
import Verif.Model.GoProgram
import Verif.Model.GoShared
import Verif.Model.GoSys
import Verif.Model.GoText
import Verif.Model.Lines
import Verif.Model.LoadWork
import Verif.Model.Log
import Verif.Model.Memory
import Verif.Model.Net
import Verif.Model.Print
import Verif.Model.Psl
import Verif.Model.Sets
import Verif.Model.Shared
import Verif.Model.Source
import Verif.Model.Strings
import Verif.Model.System
import Verif.Model.Trie
import Verif.Model.Url
import Verif.Model.Utf8
import Verif.Model.Views
import Verif.Model.Work
import Verif.Model.World
import Verif.Tests.Conformance
import Verif.Tests.Helpers
import Verif.Tests.Port
import Verif.Tests.Punycode
import Verif.Spec.Accesses
import Verif.Spec.Behaviour
import Verif.Spec.Browser
import Verif.Spec.BuiltIn
import Verif.Spec.Chars
import Verif.Spec.Cli
import Verif.Spec.Client
import Verif.Spec.Cost
import Verif.Spec.Demo
import Verif.Spec.Exact
import Verif.Spec.Extract
import Verif.Spec.Float
import Verif.Spec.Host
import Verif.Spec.Lists
import Verif.Spec.Literal
import Verif.Spec.Log
import Verif.Spec.Memory
import Verif.Spec.Mishandled
import Verif.Spec.Names
import Verif.Spec.Net
import Verif.Spec.Path
import Verif.Spec.Print
import Verif.Spec.Psl
import Verif.Spec.Punycode
import Verif.Spec.Refines
import Verif.Spec.Rfc
import Verif.Spec.Rules
import Verif.Spec.Shared
import Verif.Spec.Spelling
import Verif.Spec.System
import Verif.Spec.Text
import Verif.Spec.TextThreads
import Verif.Spec.Uri
import Verif.Spec.Url
import Verif.Spec.Utf8
import Verif.Proofs.Authority
import Verif.Proofs.Behaviour
import Verif.Proofs.Brackets
import Verif.Proofs.Build
import Verif.Proofs.Chars
import Verif.Proofs.Complete
import Verif.Proofs.Cost
import Verif.Proofs.Cut
import Verif.Proofs.Decide
import Verif.Proofs.Exact
import Verif.Proofs.ExactDecide
import Verif.Proofs.ExactText
import Verif.Proofs.FactsExact
import Verif.Proofs.FactsRules
import Verif.Proofs.FallbackAbsent
import Verif.Proofs.FallbackCheckedAll
import Verif.Proofs.FallbackCheckedPublic
import Verif.Proofs.FallbackDepth
import Verif.Proofs.FallbackExact
import Verif.Proofs.FallbackGapsAll
import Verif.Proofs.FallbackGapsPublic
import Verif.Proofs.FallbackLabels
import Verif.Proofs.FallbackList
import Verif.Proofs.FallbackPrivate
import Verif.Proofs.FallbackSpelling
import Verif.Proofs.FallbackTableAll
import Verif.Proofs.FallbackTablePublic
import Verif.Proofs.FallbackText
import Verif.Proofs.FallbackTop
import Verif.Proofs.FilesText
import Verif.Proofs.Float
import Verif.Proofs.HostParts
import Verif.Proofs.IPv4Host
import Verif.Proofs.Invalid
import Verif.Proofs.Inventory
import Verif.Proofs.InventoryDepth
import Verif.Proofs.InventoryFacts
import Verif.Proofs.InventoryMore
import Verif.Proofs.InventoryPrivate
import Verif.Proofs.InventoryText
import Verif.Proofs.InventoryTop
import Verif.Proofs.Judged
import Verif.Proofs.Labels
import Verif.Proofs.Lists
import Verif.Proofs.Literal
import Verif.Proofs.LoadWork
import Verif.Proofs.Log
import Verif.Proofs.Memory
import Verif.Proofs.Mishandled
import Verif.Proofs.MishandledDecide
import Verif.Proofs.Net
import Verif.Proofs.Outcome
import Verif.Proofs.Psl
import Verif.Proofs.Punycode
import Verif.Proofs.PunycodeLabel
import Verif.Proofs.Reading
import Verif.Proofs.Refine
import Verif.Proofs.Refines
import Verif.Proofs.RefinesParts
import Verif.Proofs.Relate
import Verif.Proofs.Reverse
import Verif.Proofs.Sets
import Verif.Proofs.Shared
import Verif.Proofs.SourceBase
import Verif.Proofs.SourceExtract
import Verif.Proofs.SourceHost
import Verif.Proofs.SourceMem
import Verif.Proofs.SourceNames
import Verif.Proofs.SourceNet
import Verif.Proofs.SourcePlain
import Verif.Proofs.SourceProcesses
import Verif.Proofs.SourcePsl
import Verif.Proofs.SourceRun
import Verif.Proofs.SourceSets
import Verif.Proofs.SourceShared
import Verif.Proofs.SourceStrings
import Verif.Proofs.SourceSysBase
import Verif.Proofs.SourceSysCli
import Verif.Proofs.SourceSysExtract
import Verif.Proofs.SourceSysImpl
import Verif.Proofs.SourceSysList
import Verif.Proofs.SourceSysNew
import Verif.Proofs.SourceSysPrint
import Verif.Proofs.SourceSysQuiet
import Verif.Proofs.SourceSysText
import Verif.Proofs.SourceSysTrie
import Verif.Proofs.SourceTrie
import Verif.Proofs.SourceWhole
import Verif.Proofs.Spelling
import Verif.Proofs.Strings
import Verif.Proofs.Suffix
import Verif.Proofs.System
import Verif.Proofs.TextThreads
import Verif.Proofs.Threads
import Verif.Proofs.Torn
import Verif.Proofs.Trie
import Verif.Proofs.Trim
import Verif.Proofs.Unescape
import Verif.Proofs.Url
import Verif.Proofs.Utf8
import Verif.Proofs.Views
import Verif.Proofs.Walk
import Verif.Proofs.WalkSpec
import Verif.Proofs.Work
import Verif.Proofs.World
import Verif.Props.Behaviour
import Verif.Props.Browser
import Verif.Props.Case
import Verif.Props.Cases
import Verif.Props.CasesLate
import Verif.Props.CasesSystem
import Verif.Props.Complete
import Verif.Props.Cost
import Verif.Props.Decoded
import Verif.Props.Errors
import Verif.Props.Exact
import Verif.Props.Fallback
import Verif.Props.FallbackExact
import Verif.Props.FallbackLists
import Verif.Props.Files
import Verif.Props.Findings
import Verif.Props.Gen
import Verif.Props.Host
import Verif.Props.Lists
import Verif.Props.LoadWork
import Verif.Props.Local
import Verif.Props.Log
import Verif.Props.Memory
import Verif.Props.Mishandled
import Verif.Props.Names
import Verif.Props.Net
import Verif.Props.NetExact
import Verif.Props.Path
import Verif.Props.Print
import Verif.Props.Private
import Verif.Props.Psl
import Verif.Props.Readme
import Verif.Props.Relate
import Verif.Props.Respelled
import Verif.Props.Rules
import Verif.Props.Shared
import Verif.Props.Sharper
import Verif.Props.Source
import Verif.Props.SourceCases
import Verif.Props.SourceCli
import Verif.Props.SourceClient
import Verif.Props.SourceDemo
import Verif.Props.SourceMem
import Verif.Props.SourceProcesses
import Verif.Props.SourcePsl
import Verif.Props.SourceShared
import Verif.Props.SourceSys
import Verif.Props.SourceSysExtract
import Verif.Props.Spelling
import Verif.Props.Stable
import Verif.Props.Strings
import Verif.Props.System
import Verif.Props.Text
import Verif.Props.Texts
import Verif.Props.Times
import Verif.Props.Total
import Verif.Props.Uri
import Verif.Props.Url
import Verif.Props.Views
import Verif.Props.Work
