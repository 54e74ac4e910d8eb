import Verif.Axioms
import Verif.Lemmas.Accumulate
import Verif.Lemmas.Addition
import Verif.Lemmas.Angular
import Verif.Lemmas.Basis
import Verif.Lemmas.BasisFile
import Verif.Lemmas.Bessel
import Verif.Lemmas.BesselCheck
import Verif.Lemmas.BesselEval
import Verif.Lemmas.BesselRows
import Verif.Lemmas.BesselSound
import Verif.Lemmas.Binomial
import Verif.Lemmas.BoysTable
import Verif.Lemmas.Cartesian
import Verif.Lemmas.Concurrent
import Verif.Lemmas.Dawson
import Verif.Lemmas.DawsonAsym
import Verif.Lemmas.DawsonCheb
import Verif.Lemmas.DawsonOde
import Verif.Lemmas.DawsonTable
import Verif.Lemmas.DiffShell
import Verif.Lemmas.Driver
import Verif.Lemmas.DriverGradient
import Verif.Lemmas.DriverGrpp
import Verif.Lemmas.DriverHeap
import Verif.Lemmas.DriverNuclear
import Verif.Lemmas.DriverTerms
import Verif.Lemmas.Elements
import Verif.Lemmas.Factorial
import Verif.Lemmas.FermiFunction
import Verif.Lemmas.FermiSk
import Verif.Lemmas.Float
import Verif.Lemmas.FloatExact
import Verif.Lemmas.FloatIeee
import Verif.Lemmas.FloatMatrix
import Verif.Lemmas.FloatPrim
import Verif.Lemmas.FloatTable
import Verif.Lemmas.Fortran
import Verif.Lemmas.FortranDriver
import Verif.Lemmas.FortranEcp
import Verif.Lemmas.FortranFiles
import Verif.Lemmas.FortranGradient
import Verif.Lemmas.FortranMatrix
import Verif.Lemmas.FortranModule
import Verif.Lemmas.FortranOutput
import Verif.Lemmas.FortranProgram
import Verif.Lemmas.FortranRpp
import Verif.Lemmas.FortranRppC
import Verif.Lemmas.Full
import Verif.Lemmas.FullLib
import Verif.Lemmas.GaussForm
import Verif.Lemmas.GaussFormParts
import Verif.Lemmas.GaussMoment
import Verif.Lemmas.GaussTransform
import Verif.Lemmas.GaussianIntegral
import Verif.Lemmas.GradientLib
import Verif.Lemmas.Grpp
import Verif.Lemmas.GrppFile
import Verif.Lemmas.GrppGradient
import Verif.Lemmas.GrppTruncated
import Verif.Lemmas.Harmonic
import Verif.Lemmas.HarmonicSpan
import Verif.Lemmas.Heap
import Verif.Lemmas.HeapGrpp
import Verif.Lemmas.Hermite
import Verif.Lemmas.Init
import Verif.Lemmas.LMatrix
import Verif.Lemmas.LocalNumeric
import Verif.Lemmas.MatrixFile
import Verif.Lemmas.MatrixSafe
import Verif.Lemmas.Mmd
import Verif.Lemmas.MmdDeriv
import Verif.Lemmas.MmdIntegral
import Verif.Lemmas.MmdTable
import Verif.Lemmas.Mono
import Verif.Lemmas.NuclearAttraction
import Verif.Lemmas.NuclearEntry
import Verif.Lemmas.NuclearModels
import Verif.Lemmas.NuclearNumeric
import Verif.Lemmas.NullForm
import Verif.Lemmas.OneElectron
import Verif.Lemmas.OneElectronList
import Verif.Lemmas.OneElectronPrim
import Verif.Lemmas.OneElectronTrue
import Verif.Lemmas.OuterCore
import Verif.Lemmas.OuterCoreMain
import Verif.Lemmas.OuterCoreNumeric
import Verif.Lemmas.OuterCoreParts
import Verif.Lemmas.OuterCoreSpin
import Verif.Lemmas.OuterCoreTrue
import Verif.Lemmas.OverlapGradient
import Verif.Lemmas.PlaneWave
import Verif.Lemmas.PlaneWaveDir
import Verif.Lemmas.PlaneWaveSum
import Verif.Lemmas.Potential
import Verif.Lemmas.Program
import Verif.Lemmas.QuadError
import Verif.Lemmas.QuadMiss
import Verif.Lemmas.Race
import Verif.Lemmas.Radial
import Verif.Lemmas.RadialLimit
import Verif.Lemmas.RadialLocal
import Verif.Lemmas.RadialLocalTrue
import Verif.Lemmas.RadialTable
import Verif.Lemmas.RealHarmonic
import Verif.Lemmas.Rotation
import Verif.Lemmas.Screening
import Verif.Lemmas.Screening1
import Verif.Lemmas.Semilocal
import Verif.Lemmas.Shell
import Verif.Lemmas.SkChain
import Verif.Lemmas.SkCheck
import Verif.Lemmas.SkSound
import Verif.Lemmas.SkStates
import Verif.Lemmas.SpecFun
import Verif.Lemmas.Sphere
import Verif.Lemmas.SphereMoment
import Verif.Lemmas.SphericalHarmonics
import Verif.Lemmas.TermsAdd
import Verif.Lemmas.TestScript
import Verif.Lemmas.Type1
import Verif.Lemmas.Type2
import Verif.Lemmas.Type2Limit
import Verif.Lemmas.Type2Main
import Verif.Lemmas.Type2Radial
import Verif.Lemmas.Utils
import Verif.Model.Angular
import Verif.Model.BasisFile
import Verif.Model.Bessel
import Verif.Model.BesselTable
import Verif.Model.Binomial
import Verif.Model.BoysTable
import Verif.Model.Cartesian
import Verif.Model.Concurrent
import Verif.Model.Dawson
import Verif.Model.Driver
import Verif.Model.DriverGradient
import Verif.Model.DriverGrpp
import Verif.Model.DriverHeap
import Verif.Model.DriverNuclear
import Verif.Model.DriverTerms
import Verif.Model.Elements
import Verif.Model.Factorial
import Verif.Model.Float
import Verif.Model.Fortran
import Verif.Model.FortranDriver
import Verif.Model.FortranFiles
import Verif.Model.FortranGradient
import Verif.Model.FortranMatrix
import Verif.Model.FortranModule
import Verif.Model.FortranProgram
import Verif.Model.FortranRpp
import Verif.Model.Full
import Verif.Model.FullLib
import Verif.Model.GaussMoment
import Verif.Model.Gradient
import Verif.Model.Grpp
import Verif.Model.GrppFile
import Verif.Model.GrppGradient
import Verif.Model.Heap
import Verif.Model.Init
import Verif.Model.LMatrix
import Verif.Model.MatrixFile
import Verif.Model.Memory
import Verif.Model.Mmd
import Verif.Model.NuclearAttraction
import Verif.Model.NuclearModels
import Verif.Model.OneElectron
import Verif.Model.Outcome
import Verif.Model.OuterCore
import Verif.Model.Parameters
import Verif.Model.Potential
import Verif.Model.Program
import Verif.Model.Race
import Verif.Model.Radial
import Verif.Model.RadialLocal
import Verif.Model.RfunTable
import Verif.Model.Screening
import Verif.Model.Screening1
import Verif.Model.Shell
import Verif.Model.SkTable
import Verif.Model.Spec
import Verif.Model.SpecFun
import Verif.Model.SpecLocal
import Verif.Model.SpecNuclear
import Verif.Model.SpecOuterCore
import Verif.Model.SpecRotation
import Verif.Model.SpecSemilocal
import Verif.Model.SpecSphere
import Verif.Model.SphericalHarmonics
import Verif.Model.TestScript
import Verif.Model.Type2
import Verif.Model.Utils
import Verif.Props.Angular
import Verif.Props.BasisFile
import Verif.Props.Bessel
import Verif.Props.Binomial
import Verif.Props.Cartesian
import Verif.Props.Concurrent
import Verif.Props.Dawson
import Verif.Props.DiffShell
import Verif.Props.Driver
import Verif.Props.DriverGradient
import Verif.Props.DriverGrpp
import Verif.Props.DriverHeap
import Verif.Props.DriverNuclear
import Verif.Props.DriverTerms
import Verif.Props.Elements
import Verif.Props.Factorial
import Verif.Props.FermiSk
import Verif.Props.Float
import Verif.Props.Fortran
import Verif.Props.FortranDriver
import Verif.Props.FortranFiles
import Verif.Props.FortranGradient
import Verif.Props.FortranMatrix
import Verif.Props.FortranModule
import Verif.Props.FortranProgram
import Verif.Props.FortranRpp
import Verif.Props.Full
import Verif.Props.FullLib
import Verif.Props.GaussMoment
import Verif.Props.GradientLib
import Verif.Props.Grpp
import Verif.Props.GrppFile
import Verif.Props.GrppGradient
import Verif.Props.GrppTerms
import Verif.Props.GrppTruncated
import Verif.Props.Heap
import Verif.Props.Init
import Verif.Props.LMatrix
import Verif.Props.MatrixFile
import Verif.Props.MatrixSafe
import Verif.Props.Norm
import Verif.Props.NuclearAttraction
import Verif.Props.NuclearModels
import Verif.Props.OneElectron
import Verif.Props.OuterCore
import Verif.Props.OverlapGradient
import Verif.Props.Potential
import Verif.Props.Program
import Verif.Props.QuadError
import Verif.Props.Radial
import Verif.Props.Screening
import Verif.Props.Screening1
import Verif.Props.Shell
import Verif.Props.SpecFun
import Verif.Props.SphericalHarmonics
import Verif.Props.TestScript
import Verif.Props.Type1
import Verif.Props.Type2
import Verif.Props.Utils
