import Verif.Props.Morton
import Verif.Props.BlockMap
import Verif.Props.IndexGen
import Verif.Props.MultiLevel
import Verif.Props.Loops
import Verif.Props.RcStorage
import Verif.Props.RcInterp
import Verif.Props.Powi
import Verif.Props.ActiveProbes
import Verif.Props.WaveDist
import Verif.Props.IterLoop
import Verif.Props.March
import Verif.Props.Ng
import Verif.Props.StatEq
import Verif.Props.ChargeCons
import Verif.Props.Interp
import Verif.Props.AtomicData
import Verif.Props.Lte
import Verif.Props.Gamma
import Verif.Props.Sparse
import Verif.Props.Mipmap
import Verif.Props.Clip
import Verif.Props.Dda
import Verif.Props.Emis
import Verif.Props.Cav
import Verif.Props.ProfileNorm
import Verif.Props.Boundary
import Verif.Props.Resample
import Verif.Props.Voigt
import Verif.Props.VoigtTable
import Verif.Props.MeanJ
import Verif.Props.InclQuad
import Verif.Props.SaveJ
import Verif.Model.Ray
import Verif.Spec.Ray
import Verif.Lemmas.Ray
import Verif.Lemmas.RayTrace
import Verif.Props.Ray
import Verif.Props.RayTrace
import Verif.Model.Crtaf
import Verif.Spec.Crtaf
import Verif.Lemmas.Crtaf
import Verif.Props.Crtaf
import Verif.Model.Config
import Verif.Spec.Config
import Verif.Lemmas.Config
import Verif.Props.Config
import Verif.Model.Startup
import Verif.Lemmas.Startup
import Verif.Props.Startup
import Verif.Model.FormalSol
import Verif.Spec.FormalSol
import Verif.Lemmas.FormalSol
import Verif.Lemmas.FormalSol2
import Verif.Lemmas.FormalSol2b
import Verif.Lemmas.FormalSol2c
import Verif.Lemmas.FormalSol3
import Verif.Lemmas.FormalSol3b
import Verif.Lemmas.FormalSol3c
import Verif.Props.FormalSol
import Verif.Props.FormalSol3
import Verif.Spec.FormalBounds
import Verif.Lemmas.FormalBounds
import Verif.Lemmas.FormalBounds2
import Verif.Props.FormalBounds
import Verif.Model.Dirs
import Verif.Lemmas.Dirs
import Verif.Lemmas.Heal
import Verif.Props.Dirs
import Verif.Props.RaySeg
import Verif.Model.Raymarch
import Verif.Spec.Transfer
import Verif.Lemmas.DdaStart
import Verif.Lemmas.DdaUniform
import Verif.Lemmas.Raymarch
import Verif.Lemmas.RaymarchExact
import Verif.Lemmas.RaymarchEnd
import Verif.Props.Raymarch
import Verif.Props.RaymarchWit
import Verif.Model.World
import Verif.Spec.World
import Verif.Lemmas.World
import Verif.Lemmas.World3
import Verif.Props.World
import Verif.Props.World3
import Verif.Props.WorldRay
import Verif.Props.WorldWit
import Verif.Model.RadGamma
import Verif.Spec.RadGamma
import Verif.Lemmas.RadGamma
import Verif.Lemmas.RadGamma2
import Verif.Lemmas.RadGamma3
import Verif.Lemmas.RadGamma4
import Verif.Lemmas.RadGamma5
import Verif.Props.RadGamma
import Verif.Model.AtmosFile
import Verif.Spec.AtmosFile
import Verif.Lemmas.AtmosFile
import Verif.Props.AtmosFile
import Verif.Model.GivenFs
import Verif.Spec.GivenFs
import Verif.Lemmas.GivenFs
import Verif.Lemmas.GivenMarch
import Verif.Lemmas.GivenBatch
import Verif.Lemmas.GivenSolve
import Verif.Props.GivenFs
import Verif.Model.PopsField
import Verif.Spec.PopsField
import Verif.Lemmas.PopsField
import Verif.Props.PopsField
import Verif.Model.VelInterp
import Verif.Spec.VelInterp
import Verif.Lemmas.VelInterp
import Verif.Lemmas.VelRange
import Verif.Props.VelInterp
import Verif.Model.LineSweep
import Verif.Spec.LineSweep
import Verif.Lemmas.LineClip
import Verif.Lemmas.LineSide
import Verif.Lemmas.LineStore
import Verif.Lemmas.LineInterp
import Verif.Lemmas.LineSet
import Verif.Props.LineSweep
import Verif.Props.LineSweepWit
import Verif.Model.LteRun
import Verif.Spec.LteRun
import Verif.Lemmas.LteStart
import Verif.Lemmas.LteCells
import Verif.Lemmas.LteBatch
import Verif.Lemmas.LteSolve
import Verif.Props.LteRun
import Verif.Props.LteRunEx
import Verif.Props.RayRun
import Verif.Props.RayRunEx
import Verif.Model.GivenFs3
import Verif.Spec.GivenFs3
import Verif.Lemmas.FormalSol3d
import Verif.Lemmas.GivenFs3
import Verif.Lemmas.GivenMarch3
import Verif.Lemmas.GivenBatch3
import Verif.Lemmas.GivenSolve3
import Verif.Props.GivenFs3
import Verif.Model.NlteRun
import Verif.Spec.NlteRun
import Verif.Lemmas.NlteGamma
import Verif.Lemmas.NlteBatch
import Verif.Lemmas.NlteBatch2
import Verif.Lemmas.NlteSolve
import Verif.Lemmas.NlteState
import Verif.Lemmas.NlteColl
import Verif.Lemmas.NlteStat
import Verif.Lemmas.NlteIter
import Verif.Lemmas.NlteLoop
import Verif.Props.NlteRun
import Verif.Props.NlteRunEx
import Verif.Spec.NlteLambda
import Verif.Lemmas.NlteLambda
import Verif.Lemmas.NlteUnique
import Verif.Props.NlteLambda
import Verif.Props.NlteLambdaEx
import Verif.Model.LteRun3
import Verif.Spec.LteRun3
import Verif.Lemmas.LteStart3
import Verif.Lemmas.LteCells3
import Verif.Lemmas.LteBatch3
import Verif.Lemmas.LteSolve3
import Verif.Props.LteRun3
import Verif.Props.LteRun3Ex
import Verif.Props.RayRun3
import Verif.Props.RayRun3Ex
import Verif.Model.NlteRun3
import Verif.Spec.NlteRun3
import Verif.Lemmas.Nlte3State
import Verif.Lemmas.Nlte3Coll
import Verif.Lemmas.Nlte3Stat
import Verif.Lemmas.Nlte3Gamma
import Verif.Lemmas.Nlte3Batch
import Verif.Lemmas.Nlte3Batch2
import Verif.Lemmas.Nlte3Solve
import Verif.Lemmas.Nlte3Iter
import Verif.Lemmas.Nlte3Loop
import Verif.Props.NlteRun3
import Verif.Props.NlteRun3Ex
import Verif.Spec.NlteLambda3
import Verif.Lemmas.Nlte3Lambda
import Verif.Lemmas.Nlte3Unique
import Verif.Props.NlteLambda3
import Verif.Props.NlteLambda3Ex
import Verif.Props.ProbeLookup
import Verif.Props.Merges
import Verif.Props.LongChar
import Verif.Props.LcQuad
import Verif.Props.Merges3
