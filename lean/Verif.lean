import Verif.Lemmas.CGData
import Verif.Lemmas.CGFiles
import Verif.Lemmas.CGLadder
import Verif.Lemmas.CGSO3
import Verif.Lemmas.CGSO5
import Verif.Lemmas.Display
import Verif.Lemmas.ExampleRuns
import Verif.Lemmas.Examples
import Verif.Lemmas.Frame
import Verif.Lemmas.FullAmp
import Verif.Lemmas.FullBlocks
import Verif.Lemmas.FullDig
import Verif.Lemmas.FullFill
import Verif.Lemmas.FullMemo
import Verif.Lemmas.FullOps
import Verif.Lemmas.FullProd
import Verif.Lemmas.FullWitness
import Verif.Lemmas.Globals
import Verif.Lemmas.HamData
import Verif.Lemmas.Harmonics
import Verif.Lemmas.Interlace
import Verif.Lemmas.Ladder
import Verif.Lemmas.Lines
import Verif.Lemmas.Memo
import Verif.Lemmas.Messages
import Verif.Lemmas.Momentum
import Verif.Lemmas.Pair
import Verif.Lemmas.Py
import Verif.Lemmas.Radial
import Verif.Lemmas.RadialAccept
import Verif.Lemmas.RadialBanded
import Verif.Lemmas.RadialBasis
import Verif.Lemmas.RadialComp
import Verif.Lemmas.RadialDb
import Verif.Lemmas.RadialDtype
import Verif.Lemmas.RadialElement
import Verif.Lemmas.RadialEscape
import Verif.Lemmas.RadialHam
import Verif.Lemmas.RadialHom
import Verif.Lemmas.RadialId
import Verif.Lemmas.RadialInt
import Verif.Lemmas.RadialLambda
import Verif.Lemmas.RadialParse
import Verif.Lemmas.RadialPlan
import Verif.Lemmas.RadialPower
import Verif.Lemmas.RadialProd
import Verif.Lemmas.RadialRoots
import Verif.Lemmas.RadialSingle
import Verif.Lemmas.RadialSplits
import Verif.Lemmas.RadialSqrt
import Verif.Lemmas.RadialTotal
import Verif.Lemmas.RadialTriple
import Verif.Lemmas.RadialWindow
import Verif.Lemmas.RootCount
import Verif.Lemmas.RootFree
import Verif.Lemmas.SO5Prod
import Verif.Lemmas.SO5Red
import Verif.Lemmas.Spherical
import Verif.Lemmas.Text
import Verif.Lemmas.Twin
import Verif.Lemmas.Weyl
import Verif.Lemmas.Zonal
import Verif.Model.CGData
import Verif.Model.CGFiles
import Verif.Model.CGSO3
import Verif.Model.CGSO5
import Verif.Model.Compat
import Verif.Model.CompatVal
import Verif.Model.Eigenvectors
import Verif.Model.Examples
import Verif.Model.FullOps
import Verif.Model.FullSpace
import Verif.Model.Globals
import Verif.Model.HamData
import Verif.Model.Harmonics
import Verif.Model.Keys
import Verif.Model.Memo
import Verif.Model.Messages
import Verif.Model.NumPy
import Verif.Model.Operators
import Verif.Model.Paper
import Verif.Model.Py
import Verif.Model.QRed
import Verif.Model.Radial
import Verif.Model.RadialElement
import Verif.Model.RadialWords
import Verif.Model.SO5Red
import Verif.Model.ShowFile
import Verif.Model.Spherical
import Verif.Model.Text
import Verif.Props.Affine
import Verif.Props.AllLevels
import Verif.Props.Balance
import Verif.Props.CGData
import Verif.Props.CGLadder
import Verif.Props.CGSO3
import Verif.Props.CGSO5
import Verif.Props.Closure
import Verif.Props.Comb
import Verif.Props.Compat
import Verif.Props.Conserved
import Verif.Props.Converge
import Verif.Props.Diagonal
import Verif.Props.Display
import Verif.Props.Eigenvectors
import Verif.Props.ErrorBound
import Verif.Props.Examples
import Verif.Props.FullAmp
import Verif.Props.FullBlocks
import Verif.Props.FullDig
import Verif.Props.FullOps
import Verif.Props.FullPi
import Verif.Props.FullSum
import Verif.Props.Globals
import Verif.Props.Ground
import Verif.Props.GroundLimit
import Verif.Props.HamApprox
import Verif.Props.HamData
import Verif.Props.Harmonics
import Verif.Props.Interlace
import Verif.Props.Keys
import Verif.Props.Lambda
import Verif.Props.Lines
import Verif.Props.LowerBound
import Verif.Props.Memo
import Verif.Props.Messages
import Verif.Props.MessagesText
import Verif.Props.MinMax
import Verif.Props.Mirror
import Verif.Props.Momentum
import Verif.Props.MomentumTypes
import Verif.Props.Multiplets
import Verif.Props.Operators
import Verif.Props.Paper
import Verif.Props.Perturb
import Verif.Props.PowerSymm
import Verif.Props.QRed
import Verif.Props.RWC
import Verif.Props.Radial
import Verif.Props.RadialAccept
import Verif.Props.RadialBasis
import Verif.Props.RadialElement
import Verif.Props.RadialFormed
import Verif.Props.RadialLC
import Verif.Props.RadialPower
import Verif.Props.RadialWord
import Verif.Props.RadialWords
import Verif.Props.Ranges
import Verif.Props.Redisplay
import Verif.Props.Repeat
import Verif.Props.Rescale
import Verif.Props.Residual
import Verif.Props.Roots
import Verif.Props.RootsFull
import Verif.Props.Routine
import Verif.Props.SO5Items
import Verif.Props.SO5Prod
import Verif.Props.SO5Red
import Verif.Props.Scale
import Verif.Props.Selection
import Verif.Props.Settings
import Verif.Props.Show
import Verif.Props.ShowFile
import Verif.Props.Spectrum
import Verif.Props.Spherical
import Verif.Props.Subspace
import Verif.Props.Symmetric
import Verif.Props.Text
import Verif.Props.TripleMomentum
import Verif.Props.Variational
import Verif.Props.Width
import Verif.Props.WidthLimit
import Verif.Props.Zonal
import Verif.Spec.Affine
import Verif.Spec.Balance
import Verif.Spec.CGData
import Verif.Spec.CGLadder
import Verif.Spec.CGSO3
import Verif.Spec.CGSO5
import Verif.Spec.Closure
import Verif.Spec.Comb
import Verif.Spec.Conserved
import Verif.Spec.Diagonal
import Verif.Spec.Display
import Verif.Spec.Dtype
import Verif.Spec.Eigenvectors
import Verif.Spec.Examples
import Verif.Spec.FullOps
import Verif.Spec.FullSpace
import Verif.Spec.Globals
import Verif.Spec.HamData
import Verif.Spec.Harmonics
import Verif.Spec.Interlace
import Verif.Spec.Keys
import Verif.Spec.Memo
import Verif.Spec.Messages
import Verif.Spec.MinMax
import Verif.Spec.Mirror
import Verif.Spec.Momentum
import Verif.Spec.Multiplets
import Verif.Spec.Operators
import Verif.Spec.RWC
import Verif.Spec.Radial
import Verif.Spec.RadialBasis
import Verif.Spec.RadialElement
import Verif.Spec.RadialPower
import Verif.Spec.RadialWords
import Verif.Spec.Rescale
import Verif.Spec.Residual
import Verif.Spec.Roots
import Verif.Spec.Routine
import Verif.Spec.SO5Items
import Verif.Spec.Selection
import Verif.Spec.Settings
import Verif.Spec.Show
import Verif.Spec.Spectrum
import Verif.Spec.Spherical
import Verif.Spec.Symmetric
import Verif.Spec.Text
import Verif.Spec.Variational
import Verif.Spec.Width
import Verif.Spec.Zonal
import Verif.Tests.HamData
import Verif.Tests.HamDataValues
import Verif.Tests.Misc
import Verif.Tests.Radial
import Verif.Tests.RadialValues
import Verif.Tests.Space
import Verif.Tests.SpaceValues
