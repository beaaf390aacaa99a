import Verif.Lemmas.Aliasing
import Verif.Lemmas.AliasingBound
import Verif.Lemmas.Apply
import Verif.Lemmas.Arith
import Verif.Lemmas.Assign
import Verif.Lemmas.Axis
import Verif.Lemmas.AxisArc
import Verif.Lemmas.AxisWeight
import Verif.Lemmas.Balance
import Verif.Lemmas.BoxMuller
import Verif.Lemmas.Buffers
import Verif.Lemmas.Cache
import Verif.Lemmas.CheckGrad
import Verif.Lemmas.Coarray
import Verif.Lemmas.CoarrayEnd
import Verif.Lemmas.CoarrayInv
import Verif.Lemmas.Converge
import Verif.Lemmas.ConvergeFactors
import Verif.Lemmas.ConvergeForce
import Verif.Lemmas.ConvergeMotion
import Verif.Lemmas.ConvergeRun
import Verif.Lemmas.ConvergeSteps
import Verif.Lemmas.CoordsFloat
import Verif.Lemmas.Cosmology
import Verif.Lemmas.Decompose
import Verif.Lemmas.Deriv
import Verif.Lemmas.Dtype
import Verif.Lemmas.Exec
import Verif.Lemmas.Expand
import Verif.Lemmas.FField
import Verif.Lemmas.FMesh
import Verif.Lemmas.FPaint
import Verif.Lemmas.FPieces
import Verif.Lemmas.FRead
import Verif.Lemmas.FStencil
import Verif.Lemmas.FSum
import Verif.Lemmas.FValues
import Verif.Lemmas.FWindow
import Verif.Lemmas.FWindowAxis
import Verif.Lemmas.FWindowMesh
import Verif.Lemmas.Field
import Verif.Lemmas.Fill
import Verif.Lemmas.FloatCell
import Verif.Lemmas.FloatRound
import Verif.Lemmas.FloatSum
import Verif.Lemmas.Force
import Verif.Lemmas.Fourier
import Verif.Lemmas.Gather
import Verif.Lemmas.GaussField
import Verif.Lemmas.GradAccuracy
import Verif.Lemmas.GradUntuned
import Verif.Lemmas.Graham
import Verif.Lemmas.Homogeneous
import Verif.Lemmas.Index
import Verif.Lemmas.Int16
import Verif.Lemmas.IntWindow
import Verif.Lemmas.Interp
import Verif.Lemmas.Invariant
import Verif.Lemmas.InvariantBits
import Verif.Lemmas.InvariantC
import Verif.Lemmas.InvariantMesh
import Verif.Lemmas.Lanczos
import Verif.Lemmas.Layout
import Verif.Lemmas.Lic
import Verif.Lemmas.LicNormalize
import Verif.Lemmas.Liouville
import Verif.Lemmas.Load
import Verif.Lemmas.LoadTypes
import Verif.Lemmas.Mesh
import Verif.Lemmas.MeshAdjoint
import Verif.Lemmas.MeshCovered
import Verif.Lemmas.MeshDiff
import Verif.Lemmas.MeshDomain
import Verif.Lemmas.MeshPaint
import Verif.Lemmas.MeshRoute
import Verif.Lemmas.MeshSum
import Verif.Lemmas.NBody
import Verif.Lemmas.NnbAxis
import Verif.Lemmas.NnbMesh
import Verif.Lemmas.NoiseFill
import Verif.Lemmas.NoiseKey
import Verif.Lemmas.NoiseLaw
import Verif.Lemmas.NoiseModes
import Verif.Lemmas.NoiseReal
import Verif.Lemmas.Norm
import Verif.Lemmas.OldCic
import Verif.Lemmas.OldCicNumpy
import Verif.Lemmas.OldPM
import Verif.Lemmas.OldTsc
import Verif.Lemmas.Order
import Verif.Lemmas.Paint
import Verif.Lemmas.PowerSpectrum
import Verif.Lemmas.Preview
import Verif.Lemmas.PreviewMesh
import Verif.Lemmas.Primary
import Verif.Lemmas.Qpm
import Verif.Lemmas.Ranlxd
import Verif.Lemmas.RanlxdSeed
import Verif.Lemmas.Ravel
import Verif.Lemmas.Reduce
import Verif.Lemmas.Regrid
import Verif.Lemmas.Resample
import Verif.Lemmas.Rotator
import Verif.Lemmas.RoundGrid
import Verif.Lemmas.Rounding
import Verif.Lemmas.ShotNoise
import Verif.Lemmas.ShotNoiseLaw
import Verif.Lemmas.ShotNoiseMesh
import Verif.Lemmas.Slice
import Verif.Lemmas.Spectral
import Verif.Lemmas.Spmd
import Verif.Lemmas.Stencil
import Verif.Lemmas.Symmetry
import Verif.Lemmas.SymmetryKinds
import Verif.Lemmas.TableChecked
import Verif.Lemmas.TableChecks
import Verif.Lemmas.TableStencil
import Verif.Lemmas.TableSums
import Verif.Lemmas.Timers
import Verif.Lemmas.Transfer
import Verif.Lemmas.Translate
import Verif.Lemmas.Trapz
import Verif.Lemmas.Uniform
import Verif.Lemmas.UniformGrid
import Verif.Lemmas.WhiteNoise
import Verif.Lemmas.WindowBounds
import Verif.Model.Abopt
import Verif.Model.AcgTables
import Verif.Model.AddMul
import Verif.Model.Apply
import Verif.Model.Arith
import Verif.Model.Buffers
import Verif.Model.Bytes
import Verif.Model.Cache
import Verif.Model.CdotAny
import Verif.Model.CdotVjp
import Verif.Model.CheckGrad
import Verif.Model.Coarray
import Verif.Model.ComplexMesh
import Verif.Model.CoordsFloat
import Verif.Model.Cosmology
import Verif.Model.Cost
import Verif.Model.Domain
import Verif.Model.Dtype
import Verif.Model.FPaint
import Verif.Model.FRead
import Verif.Model.FWindow
import Verif.Model.Field
import Verif.Model.FloatSum
import Verif.Model.Fourier
import Verif.Model.Grid
import Verif.Model.Helpers
import Verif.Model.Int16
import Verif.Model.IntWindow
import Verif.Model.Invariant
import Verif.Model.InvariantC
import Verif.Model.KleinGordon
import Verif.Model.Lanczos
import Verif.Model.LanczosTables
import Verif.Model.Layout
import Verif.Model.Lic
import Verif.Model.LicNormalize
import Verif.Model.LoadTypes
import Verif.Model.Mesh
import Verif.Model.NBody
import Verif.Model.NoiseField
import Verif.Model.NoiseLow
import Verif.Model.Numpy
import Verif.Model.Offsets32
import Verif.Model.OldCic
import Verif.Model.OldPM
import Verif.Model.OldState
import Verif.Model.PowerSpectrum
import Verif.Model.Preview
import Verif.Model.PreviewMesh
import Verif.Model.Qpm
import Verif.Model.QpmExec
import Verif.Model.Ranlxd
import Verif.Model.Ravel
import Verif.Model.Registry
import Verif.Model.Regrid
import Verif.Model.Reshape
import Verif.Model.Rotator
import Verif.Model.Rounding
import Verif.Model.Spmd
import Verif.Model.TableWindows
import Verif.Model.Timers
import Verif.Model.Transfer
import Verif.Model.TunedTables
import Verif.Model.UniformGrid
import Verif.Model.WaveletTables
import Verif.Model.WhiteNoise
import Verif.Model.Window
import Verif.Props.Abopt
import Verif.Props.AboptTransfer
import Verif.Props.AddMul
import Verif.Props.AliasRead
import Verif.Props.Aliasing
import Verif.Props.Apply
import Verif.Props.Arith
import Verif.Props.Buffers
import Verif.Props.Bytes
import Verif.Props.Cache
import Verif.Props.CdotAny
import Verif.Props.CheckGrad
import Verif.Props.Coarray
import Verif.Props.ComplexMesh
import Verif.Props.Conserved
import Verif.Props.Converge
import Verif.Props.Coords
import Verif.Props.CoordsFloat
import Verif.Props.Cosmology
import Verif.Props.Cost
import Verif.Props.Decompose
import Verif.Props.Dtype
import Verif.Props.Energy
import Verif.Props.FAccuracy
import Verif.Props.FPaint
import Verif.Props.FRead
import Verif.Props.FWindow
import Verif.Props.Field
import Verif.Props.FloatSum
import Verif.Props.Force
import Verif.Props.Fourier
import Verif.Props.GradAccuracy
import Verif.Props.GradUntuned
import Verif.Props.Grid
import Verif.Props.Growth
import Verif.Props.Helpers
import Verif.Props.Homogeneous
import Verif.Props.Int16
import Verif.Props.IntWindow
import Verif.Props.Interp
import Verif.Props.Invariant
import Verif.Props.InvariantC
import Verif.Props.KleinGordon
import Verif.Props.Lanczos
import Verif.Props.Layout
import Verif.Props.LayoutReuse
import Verif.Props.Lic
import Verif.Props.LicNormalize
import Verif.Props.Liouville
import Verif.Props.LoadTypes
import Verif.Props.Lowpass
import Verif.Props.Mesh
import Verif.Props.MeshDeriv
import Verif.Props.MeshDiff
import Verif.Props.NBody
import Verif.Props.NBodySpace
import Verif.Props.NBodyTime
import Verif.Props.NoiseField
import Verif.Props.NoiseGlobal
import Verif.Props.NoiseLaw
import Verif.Props.NoiseLow
import Verif.Props.NoiseReal
import Verif.Props.NoiseResample
import Verif.Props.Norm
import Verif.Props.NotSymplectic
import Verif.Props.Offsets32
import Verif.Props.OldPM
import Verif.Props.OldState
import Verif.Props.OldWindows
import Verif.Props.PowerSpectrum
import Verif.Props.Preview
import Verif.Props.PreviewMesh
import Verif.Props.Products
import Verif.Props.Qpm
import Verif.Props.QpmCode
import Verif.Props.QpmExec
import Verif.Props.RankFree
import Verif.Props.Ranlxd
import Verif.Props.RanlxdSeeds
import Verif.Props.Ravel
import Verif.Props.Registry
import Verif.Props.Regrid
import Verif.Props.Resample
import Verif.Props.Reshape
import Verif.Props.Rotator
import Verif.Props.Rounding
import Verif.Props.ShotNoise
import Verif.Props.SimSymmetry
import Verif.Props.Simulation
import Verif.Props.Slice
import Verif.Props.Spectral
import Verif.Props.Symmetry
import Verif.Props.TableKernel
import Verif.Props.TableWindows
import Verif.Props.Timers
import Verif.Props.Transfer
import Verif.Props.Translate
import Verif.Props.Transpose
import Verif.Props.UniformGrid
import Verif.Props.WhiteNoise
import Verif.Props.Window
import Verif.Props.WindowBounds
import Verif.Props.WindowDeriv
import Verif.Spec.Abopt
import Verif.Spec.AliasRead
import Verif.Spec.Aliasing
import Verif.Spec.Apply
import Verif.Spec.Arith
import Verif.Spec.Balance
import Verif.Spec.Buffers
import Verif.Spec.CheckGrad
import Verif.Spec.Coarray
import Verif.Spec.Converge
import Verif.Spec.Cosmology
import Verif.Spec.Deriv
import Verif.Spec.Domain
import Verif.Spec.Dtype
import Verif.Spec.FPaint
import Verif.Spec.FRead
import Verif.Spec.FWindow
import Verif.Spec.Field
import Verif.Spec.FloatSum
import Verif.Spec.Force
import Verif.Spec.GradAccuracy
import Verif.Spec.Homogeneous
import Verif.Spec.Index
import Verif.Spec.IntWindow
import Verif.Spec.Interp
import Verif.Spec.Invariant
import Verif.Spec.Lanczos
import Verif.Spec.Layout
import Verif.Spec.Lic
import Verif.Spec.LicNormalize
import Verif.Spec.Liouville
import Verif.Spec.Mesh
import Verif.Spec.MeshDiff
import Verif.Spec.NBody
import Verif.Spec.NBodySpace
import Verif.Spec.NBodyTime
import Verif.Spec.NoiseLaw
import Verif.Spec.NoiseReal
import Verif.Spec.OldCic
import Verif.Spec.OldPM
import Verif.Spec.OldState
import Verif.Spec.PowerSpectrum
import Verif.Spec.Preview
import Verif.Spec.PreviewMesh
import Verif.Spec.Qpm
import Verif.Spec.Ranlxd
import Verif.Spec.Ravel
import Verif.Spec.Registry
import Verif.Spec.Regrid
import Verif.Spec.Reshape
import Verif.Spec.Rounding
import Verif.Spec.ShotNoise
import Verif.Spec.SimSymmetry
import Verif.Spec.Simulation
import Verif.Spec.Slice
import Verif.Spec.Spectral
import Verif.Spec.Symmetry
import Verif.Spec.TableWindows
import Verif.Spec.Timers
import Verif.Spec.Transfer
import Verif.Spec.Translate
import Verif.Spec.WhiteNoise
import Verif.Spec.Window
