import Verif.Props.MeshUniform
import Verif.Props.MeshAuto
import Verif.Props.AutoMesh
import Verif.Props.Lookup
import Verif.Props.Eigen
import Verif.Props.Matscs
import Verif.Props.MatscsEigen
import Verif.Props.MatscsPsi
import Verif.Props.Bindings
import Verif.Props.Lifetime
import Verif.Props.Profiler
import Verif.Props.SectorState
import Verif.Props.YT
import Verif.Props.Propagate
import Verif.Props.Search
import Verif.Props.HalfRange
import Verif.Props.Periodic
import Verif.Props.Poly
import Verif.Props.Prufer
import Verif.Props.Index
import Verif.Props.Spectrum
import Verif.Props.MeshMatch
import Verif.Props.Eta
import Verif.Props.PeriodicKind
import Verif.Props.Formulas
import Verif.Props.CalcT
import Verif.Props.Legendre
import Verif.Props.LegendreIntegral
import Verif.Props.LiouvillePieces
import Verif.Props.LiouvilleAccept
import Verif.Props.LiouvilleWeight
import Verif.Props.LiouvilleLookup
import Verif.Props.LiouvilleForm
import Verif.Model.Solver
import Verif.Props.Convergence
import Verif.Props.UniformSolve
import Verif.Props.SturmLiouville
import Verif.Props.LiouvilleSpectrum
import Verif.Props.NewtonConverge
import Verif.Props.EnergyConverge
import Verif.Props.AngleConverge
import Verif.Props.SturmCount
import Verif.Props.SearchConverge
import Verif.Props.NewtonSound
import Verif.Props.IndexSearch
import Verif.Props.Oscillation
import Verif.Props.IndexTotal
import Verif.Props.EigenConverge
import Verif.Props.HalfConverge
import Verif.Props.MatscsConverge
import Verif.Props.MatscsEnergy
import Verif.Props.PeriodicConverge
import Verif.Props.PeriodicNumbers
import Verif.Props.PeriodicSearch
import Verif.Props.PeriodicFree
import Verif.Props.MatscsArg
import Verif.Props.MatscsConst
import Verif.Props.Rounding
import Verif.Props.RoundingEta
import Verif.Props.RoundingCode
import Verif.Props.RoundingNewton
import Verif.Props.RoundingEigen
import Verif.Props.MachineInt
