import Verif.F64.Basic
import Verif.F64.Round
import Verif.F64.Sqrt
import Verif.Model.Types
import Verif.Model.Filters
import Verif.Model.Observer
import Verif.Model.Runtime
import Verif.Model.Scatter
import Verif.Model.SolutionSet
import Verif.Model.Oqnlp
import Verif.Model.Bridge
import Verif.Lemmas.Dist
import Verif.Lemmas.Relax
import Verif.Lemmas.Reduce
import Verif.Lemmas.Steps
import Verif.Lemmas.History
import Verif.Lemmas.Tolerance
import Verif.Lemmas.Witness
import Verif.Lemmas.Scatter
import Verif.Lemmas.Bounds
import Verif.Lemmas.MinDist
import Verif.Props.Filters
import Verif.Props.SolutionSet
import Verif.Props.Tolerance
import Verif.Props.Construct
import Verif.Props.Scatter
import Verif.Props.Diversify
import Verif.Props.Schedule
import Verif.Lemmas.Trace
import Verif.Lemmas.Seq
import Verif.Lemmas.SeqRun
import Verif.Lemmas.Built
import Verif.Lemmas.Count
import Verif.Lemmas.Clock
import Verif.Lemmas.Record
import Verif.Lemmas.Demo
import Verif.Lemmas.Par
import Verif.Lemmas.Blame
import Verif.Props.Stage2
import Verif.Lemmas.RecordPar
import Verif.Props.Outcome
import Verif.Lemmas.Sim
import Verif.Lemmas.Flat
import Verif.Props.Batch
import Verif.Lemmas.Early
import Verif.Lemmas.AllRun
import Verif.Lemmas.AllBatch
import Verif.Lemmas.AllLoop
import Verif.Props.Parallel
import Verif.Props.Codec
import Verif.Props.Manager
import Verif.Props.Resume
import Verif.Props.Saves
import Verif.Props.Observer
import Verif.Props.Observed
import Verif.Props.Shown
import Verif.Props.Kept
import Verif.Props.TimeLimit
import Verif.Props.Runner
import Verif.Props.Conversation
import Verif.Props.EndToEnd
import Verif.Props.Builders
import Verif.Props.Display
import Verif.Props.Python
import Verif.Props.PyRegistry
import Verif.Props.PyLocks
import Verif.Props.PyObserver
import Verif.Props.Features
import Verif.Props.Rerun
import Verif.Lemmas.SaveOrder
import Verif.Props.SaveOrder
import Verif.Model.Restart
import Verif.Lemmas.Restart
import Verif.Props.Restart
import Verif.Model.Torn
import Verif.Lemmas.Torn
import Verif.Props.Torn
import Verif.Props.EveryMode
import Verif.Lemmas.Owed
import Verif.Props.Spent
import Verif.Lemmas.MarksPar
import Verif.Props.SavesPar
import Verif.Props.Onward
import Verif.Lemmas.RefSet
import Verif.Props.Stored
import Verif.Props.Again
import Verif.Props.Distance
import Verif.Model.Verbose
import Verif.Props.Verbose
import Verif.Props.Near
import Verif.Props.Evaluations
import Verif.Model.Console
import Verif.Lemmas.Console
import Verif.Props.Console
import Verif.Lemmas.Approx
import Verif.Props.Combine
import Verif.Props.Spread
import Verif.Model.Elapsed
import Verif.Lemmas.Elapsed
import Verif.Props.Elapsed
import Verif.Lemmas.Custom
import Verif.Props.Settled
import Verif.Props.StoredTrial
import Verif.Model.Transcript
import Verif.Lemmas.Transcript
import Verif.Lemmas.Announce
import Verif.Lemmas.Flow
import Verif.Props.Transcript
import Verif.Model.Messages
import Verif.Lemmas.Messages
import Verif.Props.Messages
import Verif.Model.Progress
import Verif.Lemmas.Progress
import Verif.Props.Progress
import Verif.Model.ResumeText
import Verif.Props.ResumeText
import Verif.Model.PyText
import Verif.Props.PyText
import Verif.Model.EvalText
import Verif.Props.EvalText
import Verif.Model.CkptText
import Verif.Props.CkptText
import Verif.Props.PyCalls
import Verif.Props.StateText
import Verif.Props.Copies
import Verif.Props.PyNames
import Verif.Props.PyChain
import Verif.Props.PyArgs
import Verif.Props.PyAttr
import Verif.Props.PyResult
import Verif.Props.PyProblem
import Verif.Props.PyObjects
import Verif.Props.Repeatable
