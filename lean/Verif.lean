import Verif.Model.Base
import Verif.Model.Bison
import Verif.Model.BisonTables
import Verif.Model.Builtin
import Verif.Model.CheckTable
import Verif.Model.Clean
import Verif.Model.Config
import Verif.Model.ConfigFile
import Verif.Model.ConfigScan
import Verif.Model.Counters
import Verif.Model.EscapeUtf8
import Verif.Model.File
import Verif.Model.Filelist
import Verif.Model.Filter
import Verif.Model.Flex
import Verif.Model.FlexBuffer
import Verif.Model.FlexTables
import Verif.Model.Flow
import Verif.Model.GenTable
import Verif.Model.Inline
import Verif.Model.LegacyTables
import Verif.Model.Locale
import Verif.Model.Main
import Verif.Model.Memory
import Verif.Model.MemoryConfig
import Verif.Model.MemoryFile
import Verif.Model.MemoryLists
import Verif.Model.MemoryMain
import Verif.Model.MemoryTables
import Verif.Model.Options
import Verif.Model.ParseTable
import Verif.Model.Scanf
import Verif.Model.ShippedConfig
import Verif.Model.ShippedEscape
import Verif.Model.ShippedTables
import Verif.Model.Stdout
import Verif.Model.Stream
import Verif.Model.Sys
import Verif.Model.Table
import Verif.Model.TableStream
import Verif.Model.Utf8
import Verif.Model.Warnings
import Verif.Spec.Again
import Verif.Spec.Brings
import Verif.Spec.CLiteral
import Verif.Spec.CSource
import Verif.Spec.Caseless
import Verif.Spec.Cgi
import Verif.Spec.Chain
import Verif.Spec.CheckTable
import Verif.Spec.Complete
import Verif.Spec.Concurrent
import Verif.Spec.Config
import Verif.Spec.ConfigErrors
import Verif.Spec.ConfigScan
import Verif.Spec.Cost
import Verif.Spec.Counters
import Verif.Spec.Cursor
import Verif.Spec.Denote
import Verif.Spec.DryRun
import Verif.Spec.DryTree
import Verif.Spec.Encoding
import Verif.Spec.Ends
import Verif.Spec.FileSystem
import Verif.Spec.Fits
import Verif.Spec.Inline
import Verif.Spec.InlineMain
import Verif.Spec.Leaks
import Verif.Spec.Legacy
import Verif.Spec.Listing
import Verif.Spec.LooseTable
import Verif.Spec.Main
import Verif.Spec.Makes
import Verif.Spec.MaxLength
import Verif.Spec.Memory
import Verif.Spec.Options
import Verif.Spec.Reached
import Verif.Spec.Result
import Verif.Spec.Resume
import Verif.Spec.Run
import Verif.Spec.Settled
import Verif.Spec.Silent
import Verif.Spec.Stdout
import Verif.Spec.Stream
import Verif.Spec.Switches
import Verif.Spec.TableFile
import Verif.Spec.TableMap
import Verif.Spec.Taken
import Verif.Spec.Tidy
import Verif.Spec.Together
import Verif.Spec.Tree
import Verif.Spec.UEscape
import Verif.Spec.Utf8
import Verif.Spec.Warnings
import Verif.Spec.Wipeup
import Verif.Spec.World
import Verif.Lemmas.Again
import Verif.Lemmas.Alters
import Verif.Lemmas.Arrive
import Verif.Lemmas.Bison
import Verif.Lemmas.Brings
import Verif.Lemmas.Buf
import Verif.Lemmas.Builtin
import Verif.Lemmas.Bystander
import Verif.Lemmas.Chain
import Verif.Lemmas.CheckDump
import Verif.Lemmas.CheckTable
import Verif.Lemmas.Complete
import Verif.Lemmas.Concurrent
import Verif.Lemmas.ConcurrentFiles
import Verif.Lemmas.ConcurrentRun
import Verif.Lemmas.ConfigErrors
import Verif.Lemmas.ConfigLoad
import Verif.Lemmas.ConfigMeaning
import Verif.Lemmas.ConfigParser
import Verif.Lemmas.ConfigSafety
import Verif.Lemmas.ConfigScan
import Verif.Lemmas.ConfigWrite
import Verif.Lemmas.Cost
import Verif.Lemmas.Counters
import Verif.Lemmas.CountersFresh
import Verif.Lemmas.CountersRun
import Verif.Lemmas.CountersSafe
import Verif.Lemmas.Defined
import Verif.Lemmas.Denote
import Verif.Lemmas.DryRun
import Verif.Lemmas.DryTree
import Verif.Lemmas.Encoding
import Verif.Lemmas.Ends
import Verif.Lemmas.EndsMain
import Verif.Lemmas.EscapeUtf8
import Verif.Lemmas.Exits
import Verif.Lemmas.Extend
import Verif.Lemmas.FileRun
import Verif.Lemmas.FileSystem
import Verif.Lemmas.Filelist
import Verif.Lemmas.Filters
import Verif.Lemmas.Final
import Verif.Lemmas.Flex
import Verif.Lemmas.FlexBuffer
import Verif.Lemmas.FlexRef
import Verif.Lemmas.FlexStates
import Verif.Lemmas.FlexTokens
import Verif.Lemmas.Follows
import Verif.Lemmas.GenTable
import Verif.Lemmas.Grammar
import Verif.Lemmas.Growth
import Verif.Lemmas.IdealRun
import Verif.Lemmas.Inline
import Verif.Lemmas.Leaks
import Verif.Lemmas.Legacy
import Verif.Lemmas.LegacyFiles
import Verif.Lemmas.Lexer
import Verif.Lemmas.LoadedTable
import Verif.Lemmas.Locale
import Verif.Lemmas.LooseTable
import Verif.Lemmas.Main
import Verif.Lemmas.MainRun
import Verif.Lemmas.MaxLength
import Verif.Lemmas.Memory
import Verif.Lemmas.MemoryChains
import Verif.Lemmas.MemoryConfig
import Verif.Lemmas.MemoryCount
import Verif.Lemmas.MemoryFile
import Verif.Lemmas.MemoryFilelist
import Verif.Lemmas.MemoryFilter
import Verif.Lemmas.MemoryLoad
import Verif.Lemmas.MemoryMain
import Verif.Lemmas.MemoryParse
import Verif.Lemmas.MemoryReview
import Verif.Lemmas.MemorySafe
import Verif.Lemmas.MemorySpoof
import Verif.Lemmas.MemoryTable
import Verif.Lemmas.MemoryTables
import Verif.Lemmas.MemoryWhole
import Verif.Lemmas.Murmurs
import Verif.Lemmas.Mute
import Verif.Lemmas.Options
import Verif.Lemmas.ParseFile
import Verif.Lemmas.ParseTable
import Verif.Lemmas.Pieces
import Verif.Lemmas.Places
import Verif.Lemmas.ReadTable
import Verif.Lemmas.Result
import Verif.Lemmas.Resume
import Verif.Lemmas.Scan
import Verif.Lemmas.Sequences
import Verif.Lemmas.Settle
import Verif.Lemmas.SettleMore
import Verif.Lemmas.Shipped
import Verif.Lemmas.SilentScan
import Verif.Lemmas.Stdout
import Verif.Lemmas.Stream
import Verif.Lemmas.StreamFeeds
import Verif.Lemmas.StreamMain
import Verif.Lemmas.StreamPrompt
import Verif.Lemmas.StreamWaits
import Verif.Lemmas.Switches
import Verif.Lemmas.Table
import Verif.Lemmas.TableCount
import Verif.Lemmas.TableSize
import Verif.Lemmas.TableStream
import Verif.Lemmas.Taken
import Verif.Lemmas.Territory
import Verif.Lemmas.TerritoryRun
import Verif.Lemmas.Together
import Verif.Lemmas.Trace
import Verif.Lemmas.Tree
import Verif.Lemmas.Units
import Verif.Lemmas.Utf8
import Verif.Lemmas.Warnings
import Verif.Lemmas.Wipeup
import Verif.Lemmas.World
import Verif.Props.Again
import Verif.Props.Brings
import Verif.Props.Caseless
import Verif.Props.Chain
import Verif.Props.CheckDump
import Verif.Props.CheckTable
import Verif.Props.Closed
import Verif.Props.Complete
import Verif.Props.Concurrent
import Verif.Props.Config
import Verif.Props.ConfigErrors
import Verif.Props.ConfigScan
import Verif.Props.Configured
import Verif.Props.Cost
import Verif.Props.Counters
import Verif.Props.Covered
import Verif.Props.Default
import Verif.Props.Denote
import Verif.Props.DryRun
import Verif.Props.DryTree
import Verif.Props.Elsewhere
import Verif.Props.Encoding
import Verif.Props.EndToEnd
import Verif.Props.Ends
import Verif.Props.EscapeUtf8
import Verif.Props.Escaped
import Verif.Props.Exchange
import Verif.Props.Exit
import Verif.Props.Extension
import Verif.Props.File
import Verif.Props.Filelist
import Verif.Props.Finish
import Verif.Props.Front
import Verif.Props.GenTable
import Verif.Props.Growth
import Verif.Props.InTurn
import Verif.Props.Inline
import Verif.Props.InlineMain
import Verif.Props.Iso
import Verif.Props.IsoExact
import Verif.Props.Legacy
import Verif.Props.Listing
import Verif.Props.Locale
import Verif.Props.Lower
import Verif.Props.Main
import Verif.Props.MaxLength
import Verif.Props.MemoryFile
import Verif.Props.MemoryLists
import Verif.Props.MemoryWhole
import Verif.Props.OnePass
import Verif.Props.Options
import Verif.Props.ParseTable
import Verif.Props.Parser
import Verif.Props.Progress
import Verif.Props.Quiet
import Verif.Props.Reached
import Verif.Props.Repeat
import Verif.Props.Result
import Verif.Props.Resume
import Verif.Props.Safety
import Verif.Props.SameMeaning
import Verif.Props.SameName
import Verif.Props.Scan
import Verif.Props.ScanRun
import Verif.Props.Scanner
import Verif.Props.Settled
import Verif.Props.ShippedEscape
import Verif.Props.SilentScan
import Verif.Props.Slash
import Verif.Props.Stdout
import Verif.Props.Stopped
import Verif.Props.Stream
import Verif.Props.Switches
import Verif.Props.Table
import Verif.Props.TableStream
import Verif.Props.Tables
import Verif.Props.Taken
import Verif.Props.Together
import Verif.Props.TogetherAny
import Verif.Props.TrailingSlash
import Verif.Props.Tree
import Verif.Props.TwoPasses
import Verif.Props.Uncgi
import Verif.Props.Utf8
import Verif.Props.Vanish
import Verif.Props.Warnings
import Verif.Props.Whatever
import Verif.Props.Wipeup
import Verif.Audit
import Verif.Tests
