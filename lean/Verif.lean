import Verif.Props.Formula
import Verif.Props.FormulaLogic
import Verif.Props.Solvers
import Verif.Props.Stateful
import Verif.Props.AigRead
import Verif.Props.AigUse
import Verif.Props.AigPrint
import Verif.Props.Fsts
import Verif.Props.Bmc
import Verif.Props.Ic3
import Verif.Props.Pdr
import Verif.Props.Agree
import Verif.Props.FrontEnds
import Verif.Props.Builds
import Verif.Props.Again
import Verif.Props.Replay
import Verif.Props.RepoTests
import Verif.Props.Ic3Steps
import Verif.Props.PdrSteps
import Verif.Props.PdrFlags
import Verif.Props.Files
import Verif.Props.Failures
import Verif.Props.AigNode
import Verif.Props.Verbose
import Verif.Props.Rounds
import Verif.Props.Drivers
import Verif.Props.DriverRuns
import Verif.Props.SatTests
import Verif.Props.SatTestRuns
import Verif.Props.LongStrings
import Verif.Props.GiveUp
import Verif.Props.Ic3Push
import Verif.Props.BmcLimit
import Verif.Props.Simulated
import Verif.Props.Wrap
import Verif.Props.Invariant
import Verif.Props.Constant
import Verif.Props.Counters
import Verif.Props.Partial
import Verif.Props.Instances
import Verif.Axioms
