import Verif.Props.Arith
import Verif.Props.VirtualPoly
import Verif.Props.SumCheck
import Verif.Props.Kzg
import Verif.Props.Batch
import Verif.Props.ProverTracker
import Verif.Props.Joint
import Verif.Props.Claims
import Verif.Props.Compile
import Verif.Props.Copies
import Verif.Props.BagChecks
import Verif.Props.SetChecks
import Verif.Props.SetOps
import Verif.Props.Sizes
import Verif.Props.SetCheats
import Verif.Props.Advice
import Verif.Props.Honest
import Verif.Props.TableAdvice
import Verif.Props.Cross
import Verif.Props.Lockstep
import Verif.Spec.TableRuns
import Verif.Lemmas.HonestTables
import Verif.Props.TableRuns
import Verif.Lemmas.TabSound
import Verif.Props.TableChecks
import Verif.Props.GroupBy
import Verif.Props.EndToEnd
import Verif.Props.Program
import Verif.Props.ProgramSound
import Verif.Props.GroupSizes
import Verif.Props.JoinSizes
import Verif.Props.Memory
import Verif.Props.Crash
import Verif.Props.Guards
import Verif.Props.Release
import Verif.Props.MemoryProtocols
import Verif.Spec.Binding
import Verif.Lemmas.Twin
import Verif.Props.SumBinding
import Verif.Spec.Verified
import Verif.Spec.FinalPass
import Verif.Lemmas.FoldSound
import Verif.Lemmas.FoldValues
import Verif.Lemmas.VerifySound
import Verif.Lemmas.Degrees
import Verif.Props.Verified
import Verif.Props.FinalPass
import Verif.Props.Schedule
import Verif.Props.Hiding
import Verif.Props.After
import Verif.Props.Session
import Verif.Props.Layout
import Verif.Props.LayoutPrograms
import Verif.Props.Halted
import Verif.Props.Unread
import Verif.Spec.Builds
import Verif.Lemmas.Builds
import Verif.Lemmas.BuildsProtocols
import Verif.Lemmas.BuildsTables
import Verif.Lemmas.BuildsVerifier
import Verif.Lemmas.BuildsPrograms
import Verif.Props.Builds
import Verif.Spec.Shape
import Verif.Lemmas.Shape
import Verif.Lemmas.ShapeProof
import Verif.Lemmas.ShapeOps
import Verif.Lemmas.ShapeCompile
import Verif.Props.Shape
import Verif.Spec.Retry
import Verif.Lemmas.Trail
import Verif.Lemmas.Retry
import Verif.Props.Retry
import Verif.Spec.OwnProver
import Verif.Lemmas.OwnProver
import Verif.Props.OwnProver
import Verif.Spec.ErrorKinds
import Verif.Lemmas.ErrorKinds
import Verif.Lemmas.ErrorEnds
import Verif.Props.ErrorKinds
import Verif.Spec.Chance
import Verif.Spec.OwnChance
import Verif.Lemmas.Chance
import Verif.Lemmas.Online
import Verif.Lemmas.OnlineP
import Verif.Lemmas.OwnChance
import Verif.Lemmas.OnlineV
import Verif.Lemmas.OnlineS
import Verif.Props.Chance
import Verif.Spec.Cost
import Verif.Lemmas.Cost
import Verif.Lemmas.CostP
import Verif.Props.Cost
import Verif.Spec.ProgramDegree
import Verif.Lemmas.ProgramDegree
import Verif.Props.ProgramDegree
import Verif.Spec.Compilable
import Verif.Lemmas.ProgramDegreeP
import Verif.Lemmas.ProgramSize
import Verif.Props.Compilable
import Verif.Spec.Inactive
import Verif.Lemmas.Inactive
import Verif.Props.Inactive
import Verif.Spec.Values
import Verif.Lemmas.Values
import Verif.Props.Values
import Verif.Spec.Reorder
import Verif.Lemmas.Reorder
import Verif.Props.Reorder
import Verif.Spec.Coherent
import Verif.Lemmas.Coherent
import Verif.Props.Coherent
import Verif.Spec.Placed
import Verif.Lemmas.Placed
import Verif.Props.Placed
import Verif.Spec.Made
import Verif.Lemmas.Made
import Verif.Props.Made
import Verif.Props.Merged
