import Verif.Res
import Verif.Matrix
import Verif.MatrixLemmas
import Verif.MatrixOps
import Verif.MatrixOps2
import Verif.Spec.Matrix
import Verif.MatrixBridge
import Verif.Props.MatrixA
import Verif.Props.MatrixB
import Verif.Sum
import Verif.Props.MatrixC
import Verif.Heap
import Verif.Spec.Heap
import Verif.HeapLemmas
import Verif.Props.Heap
import Verif.Props.Names
import Verif.QC
import Verif.QCSwap
import Verif.QCBlocks
import Verif.Spec.QC
import Verif.QCUnscramble
import Verif.Props.QCSwap
import Verif.Props.QCBlocks
import Verif.Props.QCReorder
import Verif.Spec.Transfer
import Verif.QCTransfer
import Verif.Props.Transfer
import Verif.Props.Rank
import Verif.Strings
import Verif.Spec.Strings
import Verif.StringLemmas
import Verif.Props.Strings
import Verif.Parameters
import Verif.Props.Parameters
import Verif.Lit
import Verif.Maps
import Verif.SetLemmas
import Verif.Properties
import Verif.Arguments
import Verif.ArgParser
import Verif.IO
import Verif.Spec.Args
import Verif.Props.Properties
import Verif.Props.Stoi
import Verif.Spec.CalcJ
import Verif.CalcJ
import Verif.CalcJLoop
import Verif.CalcJParse
import Verif.Props.CommandLine
import Verif.Prepare
import Verif.Spec.Files
import Verif.Props.Files
import Verif.Readers
import Verif.LogReader
import Verif.PunReader
import Verif.Main
import Verif.Spec.Readers
import Verif.Spec.Log
import Verif.ReaderLemmas
import Verif.LogLemmas
import Verif.OverlapLemmas
import Verif.PopulationLemmas
import Verif.Spec.LogFile
import Verif.LogFileLemmas
import Verif.Spec.Pun
import Verif.PunLemmas
import Verif.TermLemmas
import Verif.LogTerm
import Verif.PunTerm
import Verif.HangLemmas
import Verif.ConcreteNum
import Verif.Props.ReadersA
import Verif.Props.ReadersTerm
import Verif.CountLemmas
import Verif.ConcreteLog
import Verif.Props.ReadersLog
import Verif.Props.ReadersPun
import Verif.Spec.Main
import Verif.MainLemmas
import Verif.Props.Main
import Verif.JobLemmas
import Verif.AlignLemmas
import Verif.Props.Job
import Verif.ConcreteJob
import Verif.Safe
import Verif.Spec.Safe
import Verif.SafeCoupling
import Verif.SafeJob
import Verif.Props.Safe
import Verif.ConcreteSafe
import Verif.DoubleTos
import Verif.Spec.Tos
import Verif.TosLemmas
import Verif.Props.Tos
import Verif.Spec.Report
import Verif.Output
import Verif.Props.Output
import Verif.Print
import Verif.Spec.Print
import Verif.Props.Print
import Verif.Usage
import Verif.Spec.Usage
import Verif.Props.Usage
import Verif.Props.UsageB
import Verif.Props.Documented
import Verif.SymmetryLemmas
import Verif.Props.Symmetry
import Verif.ArgOptions
import Verif.Spec.ArgOptions
import Verif.Props.ArgOptions
import Verif.Props.ParserOptions
import Verif.Props.MatrixD
import Verif.Props.StringsB
import Verif.Props.PropertiesB
import Verif.Spec.Machine
import Verif.Props.Machine
import Verif.Props.Bits
import Verif.ConcreteBits
import Verif.Spec.AnyParser
import Verif.Props.AnyParser
import Verif.Props.EndToEnd
import Verif.ConcreteEnd
import Verif.Spec.Rounding
import Verif.Rounding
import Verif.Props.Rounding
import Verif.ConcreteRounding
import Verif.Spec.Accepts
import Verif.Props.Accepts
import Verif.Props.AcceptsEx
import Verif.Spec.Schedule
import Verif.Props.Schedule
import Verif.Props.Outcome
import Verif.Props.Fuel
import Verif.Ints
import Verif.Spec.Ints
import Verif.IntsLemmas
import Verif.Props.Ints
import Verif.Props.Defaults
import Verif.Spec.Energies
import Verif.Props.Energies
import Verif.Props.Consistent
import Verif.Props.Blocks
import Verif.Spec.Feed
import Verif.Props.Coords
import Verif.Spec.Compose
import Verif.Props.Compose
import Verif.Spec.PunLines
import Verif.Props.PunLines
import Verif.Spec.LogLines
import Verif.LogWords
import Verif.LogLinesA
import Verif.LogLinesB
import Verif.LogLinesC
import Verif.Props.LogLines
import Verif.Spec.Unscramble
import Verif.Props.Unscramble
import Verif.Spec.Run
import Verif.RunLemmas
import Verif.Props.Run
import Verif.Props.RunLine
import Verif.Props.RunEdges
import Verif.ConcreteRun
import Verif.Reread
import Verif.Spec.Reread
import Verif.RereadLemmas
import Verif.Props.Reread
import Verif.Spec.EveryLine
import Verif.Props.EveryLine
import Verif.ConcreteLine
import Verif.Spec.IntsJob
import Verif.Props.IntsJob
import Verif.ConcreteInts
import Verif.TosMachine
import Verif.Spec.TosMachine
import Verif.Props.TosMachine
import Verif.Changing
import Verif.Spec.Changing
import Verif.Props.Changing
import Verif.ConcreteChange
import Verif.OutputLemmas
import Verif.Spec.Stdout
import Verif.Props.Stdout
import Verif.ConcreteStdout
import Verif.HeapJob
import Verif.HeapJobLemmas
import Verif.HeapJobLemmas2
import Verif.Spec.HeapJob
import Verif.Props.HeapJob
import Verif.ConcreteHeap
import Verif.Spec.Refuses
import Verif.Props.Refuses
import Verif.Props.RefusesEx
import Verif.Spec.Fock
import Verif.Props.Fock
import Verif.Props.FockEx
import Verif.IntsRead
import Verif.Spec.IntsRead
import Verif.IntsReadLemmas
import Verif.Props.IntsRead
import Verif.Props.IntsShort
import Verif.Props.IntsEnds
import Verif.ConcreteIntsRead
import Verif.Spec.Declared
import Verif.Props.UsageC
import Verif.Tests.Matrix
import Verif.Tests.Args
import Verif.Props.IntsShortLog
import Verif.ConcreteIntsShort
import Verif.ArgLeft
import Verif.Spec.ArgLeft
import Verif.Props.ArgLeftResult
import Verif.Props.ArgLeft
import Verif.Props.ArgRetry
import Verif.Props.ArgSetLeft
import Verif.Props.ArgRetryEx
import Verif.ArgHeap
import Verif.Spec.ParserCopy
import Verif.ParserCopyLemmas
import Verif.ParserCopyParse
import Verif.ParserCopySet
import Verif.ParserCopyWorld
import Verif.Props.ParserCopy
import Verif.Props.ParserCopies
import Verif.Props.ParserCopyEx
import Verif.Spec.Physics
import Verif.Props.Physics
import Verif.Props.PhysicsB
import Verif.Props.PhysicsEx
import Verif.TransferLeft
import Verif.Spec.TransferLeft
import Verif.Props.TransferLeft
import Verif.Props.TransferThrow
import Verif.Props.TransferLeftEx
import Verif.Spec.Crlf
import Verif.CrlfLemmas
import Verif.CrlfPun
import Verif.CrlfLog
import Verif.Props.Crlf
import Verif.Props.CrlfRun
import Verif.Props.CrlfEx
import Verif.Spec.CutOff
import Verif.CutOffLemmas
import Verif.CutOffPun
import Verif.CutOffLog
import Verif.Props.CutOff
import Verif.Props.CutOffEx
import Verif.Spec.Split
import Verif.Props.PropStore
import Verif.Props.Split
import Verif.Props.SplitEx
import Verif.Spec.Errors
import Verif.Props.Errors
import Verif.Props.ErrorsEx
import Verif.Spec.TotalError
import Verif.Props.TotalError
import Verif.Props.TotalErrorEx
import Verif.Spec.MachineRun
import Verif.Props.MachineRun
import Verif.Spec.RunErrors
import Verif.Props.RunErrors
import Verif.Spec.Spoil
import Verif.Props.Spoil
import Verif.Props.SpoilEx
import Verif.Spec.Depends
import Verif.Props.Depends
import Verif.Props.Exchange
import Verif.Props.ExchangeJob
import Verif.Props.ExchangeEx
import Verif.Spec.Ghosts
import Verif.Props.Ghosts
import Verif.Props.GhostsEx
import Verif.Spec.Parallel
import Verif.Props.Parallel
import Verif.Props.ParallelEx
import Verif.Spec.Reads
import Verif.Props.Reads
import Verif.Props.ReadsEx
import Verif.Spec.SamePair
import Verif.Props.SamePair
import Verif.Props.SamePairEx
import Verif.Spec.Chatter
import Verif.ChatterKeep
import Verif.ChatterShift
import Verif.ChatterOnce
import Verif.Props.Chatter
import Verif.Props.ChatterEx
import Verif.Spec.SameContents
import Verif.Props.SameContents
import Verif.Props.SameContentsEx
import Verif.Spec.Joined
import Verif.Props.Joined
import Verif.Props.JoinedEx
import Verif.Spec.Sectioned
import Verif.Props.Sectioned
import Verif.Props.SectionedEx
