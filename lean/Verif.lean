import Verif.Props.Numbering
import Verif.Props.Text
import Verif.Props.Combine
import Verif.Props.Write
import Verif.Props.Select
import Verif.Props.Ident
import Verif.Props.Values
import Verif.Props.Fields
import Verif.Props.Meaning
import Verif.Props.Logic
import Verif.Props.Reads
import Verif.Props.Immutable
import Verif.Props.Shared
import Verif.Props.Access
import Verif.Props.HandedOut
import Verif.Props.Parts
import Verif.Props.Exec
import Verif.Props.Reports
import Verif.Props.SameText
import Verif.Props.CombineFails
import Verif.Props.JoinChains
import Verif.Props.Later
import Verif.Props.LaterOnce
import Verif.Props.Moved
import Verif.Props.Written
import Verif.Props.Laws
import Verif.Props.Spelled
import Verif.Props.SpelledMemory
import Verif.Props.Retable
import Verif.Props.RetableMemory
import Verif.Props.OnceThreads
import Verif.Props.OnceMoments
import Verif.Props.RetableEnds
import Verif.Props.Wish
import Verif.Props.Long
import Verif.Props.Rows
import Verif.Props.Exact
import Verif.Props.Accepted
import Verif.Props.Program
import Verif.Props.Errors
import Verif.Props.AnyCond
import Verif.Tests.RepoNames
import Verif.Tests.RepoLibrary
import Verif.Tests.RepoConditions
import Verif.Tests.RepoBuilders
import Verif.Tests.RepoOther
import Verif.Props.Calls
import Verif.Props.Frame
import Verif.Props.Passed
import Verif.Props.Threads
import Verif.Props.Once
import Verif.Props.Twins
import Verif.Props.Adding
import Verif.Props.Sources
import Verif.Props.Slices
import Verif.Props.WhereRows
import Verif.Props.Sharp
import Verif.Props.Promote
import Verif.Props.GivenOut
import Verif.Props.Hollow
import Verif.Props.Limits
import Verif.Props.ReadsExact
import Verif.Props.Nested
import Verif.Props.NestedProgram
import Verif.Props.Spill
import Verif.Props.Spoil
import Verif.Props.Taint
import Verif.Props.PassedTaint
import Verif.Props.Runs
import Verif.Props.Cycle
import Verif.Props.Memory
import Verif.Props.MemoryThreads
import Verif.Props.MemoryMeant
import Verif.Props.NamesOnly
import Verif.Props.KindProgram
import Verif.Props.LostProgram
import Verif.Props.CountColumn
import Verif.Props.AnyNames
