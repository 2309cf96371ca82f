import Verif.Props.Params
import Verif.Props.MainLoop
import Verif.Props.Text
import Verif.Props.Index
import Verif.Props.Tol
import Verif.Props.Matrix
import Verif.Props.MatMul
import Verif.Props.MatRead
import Verif.Props.MatSolve
import Verif.Props.Mat3
import Verif.Props.Grid
import Verif.Props.Finder
import Verif.Props.Coord
import Verif.Props.Angles
import Verif.Props.Field
import Verif.Props.Coeff
import Verif.Props.Cheb
import Verif.Props.General
import Verif.Props.Root
import Verif.Props.Interp
import Verif.Props.Hermite
import Verif.Props.TextSearch
import Verif.Props.Fourier
import Verif.Props.Ylm
import Verif.Model.RootTables
import Verif.Model.Integration
import Verif.Lemmas.Gauss
import Verif.Lemmas.RootCheck
import Verif.Lemmas.RootRun
import Verif.Props.Quadrature
import Verif.Props.Integration
import Verif.Model.Checkpoint
import Verif.Lemmas.Checkpoint
import Verif.Props.Checkpoint
import Verif.Props.CheckpointCrash
import Verif.Props.CheckpointPar
import Verif.Model.Schur
import Verif.Spec.Schur
import Verif.Lemmas.Schur
import Verif.Lemmas.SchurStep
import Verif.Lemmas.SchurCore
import Verif.Props.SchurLabels
import Verif.Props.Schur
import Verif.Props.SchurBound
import Verif.Props.SchurDone
import Verif.Props.SchurUpdate
import Verif.Props.SchurEx
import Verif.Model.SolveEqs
import Verif.Props.SolveEqs
import Verif.Props.Relax
import Verif.Model.YlmCoeffs
import Verif.Props.YlmCoeffs
import Verif.Model.Fornberg
import Verif.Lemmas.Fornberg
import Verif.Props.Fornberg
import Verif.Model.Deriv
import Verif.Spec.Deriv
import Verif.Lemmas.Deriv
import Verif.Lemmas.DerivLine
import Verif.Props.Deriv
import Verif.Model.DerivName
import Verif.Props.DerivName
import Verif.Model.EoS
import Verif.Spec.EoS
import Verif.Lemmas.EoS
import Verif.Props.EoS
import Verif.Model.EoSTab
import Verif.Props.EoSSpline
import Verif.Props.EoSTab
import Verif.Model.Transform
import Verif.Props.Transform
import Verif.Model.Gen.DiffGeom
import Verif.Model.Bssn
import Verif.Props.DiffGeom
import Verif.Spec.Xcts
import Verif.Spec.Fields
import Verif.Spec.Adm
import Verif.Lemmas.Fields
import Verif.Model.Gen.EqPsi
import Verif.Model.Gen.EqAlphaPsi
import Verif.Model.Gen.EqPhi
import Verif.Model.Gen.EqB0
import Verif.Props.EqPsi
import Verif.Props.EqAlphaPsi
import Verif.Props.EqPhi
import Verif.Props.EqPhiCont
import Verif.Props.EqB0
import Verif.Model.Gen.Adm
import Verif.Model.Gen.AConfIJ
import Verif.Model.Gen.AdmHamMom
import Verif.Lemmas.Conformal
import Verif.Lemmas.ConformalField
import Verif.Props.Adm
import Verif.Props.AConf
import Verif.Props.HamMom
import Verif.Props.HamMomAgree
import Verif.Model.Gen.Fluid
import Verif.Model.Fluid
import Verif.Spec.Fluid
import Verif.Props.Fluid
import Verif.Model.Jac
import Verif.Lemmas.Jac
import Verif.Props.Jac
import Verif.Props.JacMat
import Verif.Model.Orbit
import Verif.Props.Orbit
import Verif.Model.DInterp
import Verif.Props.DInterp
import Verif.Model.Sewing
import Verif.Props.Sewing
import Verif.Props.SewingEx
import Verif.Model.Interface
import Verif.Spec.Interface
import Verif.Lemmas.Interface
import Verif.Lemmas.InterfaceInv
import Verif.Lemmas.InterfaceRun
import Verif.Lemmas.InterfaceSet
import Verif.Lemmas.InterfaceAll
import Verif.Props.Interface
import Verif.Props.InterfaceBc
import Verif.Props.InterfaceEx
import Verif.Model.CoordJac
import Verif.Props.CoordJac
import Verif.Props.CoordJacDet
import Verif.Model.SplitGrid
import Verif.Spec.Tiling
import Verif.Lemmas.SplitGrid
import Verif.Lemmas.SplitGridShape
import Verif.Lemmas.SplitGridTile
import Verif.Lemmas.SplitGridCore
import Verif.Lemmas.SplitGridOuter
import Verif.Lemmas.SplitGridCover
import Verif.Lemmas.SplitGridBuild
import Verif.Props.SplitGrid
import Verif.Props.SplitGridEx
import Verif.Model.Reader
import Verif.Spec.Reader
import Verif.Lemmas.Reader
import Verif.Props.Reader
import Verif.Props.ReaderFile
import Verif.Model.Tov
import Verif.Spec.Tov
import Verif.Props.Tov
import Verif.Props.TovCenter
import Verif.Props.TovGlobal
import Verif.Props.TovEx
import Verif.Props.TovFind
import Verif.Props.TovFindEx
import Verif.Model.Assemble
import Verif.Props.Assemble
import Verif.Model.Poisson
import Verif.Props.Poisson
import Verif.Props.PoissonEx
import Verif.Props.PoissonPde
import Verif.Spec.Erfc
import Verif.Spec.Filter
import Verif.Lemmas.Erfc
import Verif.Lemmas.Filter
import Verif.Model.Filter
import Verif.Props.Filter
import Verif.Model.Startup
import Verif.Props.Startup
import Verif.Spec.Obs
import Verif.Lemmas.Obs
import Verif.Model.Gen.Obs
import Verif.Model.Observe
import Verif.Props.ObsMass
import Verif.Props.ObsTotal
import Verif.Props.ObsMomentum
import Verif.Props.ObsMomTotal
import Verif.Spec.Bhf
import Verif.Model.Bhf
import Verif.Props.Bhf
import Verif.Props.BhfFind
import Verif.Props.BhfFill
import Verif.Props.BhfPerfect
import Verif.Props.BhfEx
import Verif.Props.BhfMore
import Verif.Lemmas.Chars
import Verif.Lemmas.Cheb
import Verif.Lemmas.Gen.KsAll
import Verif.Lemmas.Gen.KsH0
import Verif.Lemmas.Gen.KsH1
import Verif.Lemmas.Gen.KsH2
import Verif.Lemmas.Gen.KsI
import Verif.Lemmas.Gen.KsK0
import Verif.Lemmas.Gen.KsK1
import Verif.Lemmas.Gen.KsK2
import Verif.Lemmas.Gen.KsMix
import Verif.Lemmas.Gen.KsR1
import Verif.Lemmas.Gen.KsR2
import Verif.Lemmas.Gen.KsS
import Verif.Lemmas.Gen.KsT
import Verif.Lemmas.Gen.KsX
import Verif.Lemmas.Gen.Ksg00
import Verif.Lemmas.Gen.Ksg01
import Verif.Lemmas.Gen.Ksg02
import Verif.Lemmas.Gen.Ksg11
import Verif.Lemmas.Gen.Ksg12
import Verif.Lemmas.Gen.Ksg22
import Verif.Lemmas.Gen.Kslc
import Verif.Lemmas.Gen.Kslk0
import Verif.Lemmas.Gen.Kslk1
import Verif.Lemmas.Gen.Kslk2
import Verif.Lemmas.Gen.Kslkt
import Verif.Lemmas.Ks
import Verif.Lemmas.KsRest
import Verif.Lemmas.Legendre
import Verif.Lemmas.Matrix
import Verif.Lemmas.ParamDB
import Verif.Lemmas.ParamInv
import Verif.Lemmas.ParamMult
import Verif.Lemmas.ParamStr
import Verif.Lemmas.Swap
import Verif.Lemmas.Text
import Verif.Lemmas.Trig
import Verif.Model.Angles
import Verif.Model.Cheb
import Verif.Model.Coeff
import Verif.Model.Common
import Verif.Model.Coord
import Verif.Model.Field
import Verif.Model.Finder
import Verif.Model.Fourier
import Verif.Model.Gen.FreeK
import Verif.Model.Gen.KsG
import Verif.Model.Gen.KsH
import Verif.Model.Gen.KsK
import Verif.Model.Gen.KsR
import Verif.Model.General
import Verif.Model.Grid
import Verif.Model.Index
import Verif.Model.Interp
import Verif.Model.Ks
import Verif.Model.KsPar
import Verif.Model.MainLoop
import Verif.Model.Mat3
import Verif.Model.Matrix
import Verif.Model.Params
import Verif.Model.Root
import Verif.Model.Text
import Verif.Model.Tol
import Verif.Model.Ylm
import Verif.Props.Ks
import Verif.Props.KsCurv
import Verif.Props.KsDeriv
import Verif.Props.KsHorizon
import Verif.Props.KsParams
import Verif.Props.KsSplit
import Verif.Props.Spline
import Verif.Spec.Ks
import Verif.Spec.Legendre
import Verif.Spec.Matrix
import Verif.Spec.Params
import Verif.Spec.Spline
import Verif.Spec.Text
import Verif.Model.Gen.BhTheta
import Verif.Model.BlackHole
import Verif.Spec.BlackHole
import Verif.Props.BlackHole
import Verif.Props.BlackHoleNormal
import Verif.Model.FreeData
import Verif.Spec.FreeData
import Verif.Props.FreeData
import Verif.Props.FreeDataPlan
import Verif.Model.Tune
import Verif.Spec.Tune
import Verif.Props.Tune
import Verif.Model.StarCenter
import Verif.Spec.StarCenter
import Verif.Props.StarCenter
import Verif.Props.StarCenterEx
import Verif.Model.StarFill
import Verif.Spec.StarFill
import Verif.Props.StarFill
import Verif.Props.StarFillMore
import Verif.Props.StarFillEnd
import Verif.Props.StarFillEx
import Verif.Model.StarSurface
import Verif.Props.YlmStable
import Verif.Props.StarSurface
import Verif.Props.StarSurfaceMore
import Verif.Props.StarSurfaceEx
import Verif.Model.Physics
import Verif.Spec.Physics
import Verif.Props.Physics
import Verif.Model.ObsCenter
import Verif.Spec.ObsCenter
import Verif.Props.ObsCenter
import Verif.Model.Derive
import Verif.Spec.Derive
import Verif.Props.Derive
import Verif.Model.MassShed
import Verif.Spec.MassShed
import Verif.Props.MassShed
import Verif.Model.InitFields
import Verif.Spec.InitFields
import Verif.Lemmas.InitFields
import Verif.Props.InitFields
import Verif.Model.ObsPlan
import Verif.Spec.ObsPlan
import Verif.Props.ObsPlan
import Verif.Model.Tasks
import Verif.Spec.Tasks
import Verif.Props.Tasks
import Verif.Model.MassPlan
import Verif.Spec.MassPlan
import Verif.Props.MassPlan
