import Verif.Common
import Verif.H2.Model
import Verif.H2.Lemmas
import Verif.H2.History
import Verif.H2.Spec
import Verif.H2.Bridge
import Verif.H2.More
import Verif.H2.Witness
import Verif.H2.Props
import Verif.H2.Header
import Verif.H2.HeaderLemmas
import Verif.H2.HeaderParse
import Verif.H2.HeaderProps
import Verif.Mapping.Model
import Verif.Mapping.Lemmas
import Verif.Mapping.Spec
import Verif.Mapping.Core
import Verif.Mapping.Scatter
import Verif.Mapping.Props
import Verif.Mapping.MatProps
import Verif.Xform.Model
import Verif.Xform.Spec
import Verif.Xform.Lemmas
import Verif.Xform.Props
import Verif.Xform.MatProps
import Verif.Osc.Model
import Verif.Osc.MeProps
import Verif.Osc.Square
import Verif.Osc.Positive
import Verif.Osc.Laguerre
import Verif.Osc.Wave
import Verif.Osc.WaveProps
import Verif.Osc.Integral
import Verif.Osc.IntegralProps
import Verif.Osc.SquareIntegral
import Verif.Relative.Radial
import Verif.Relative.Dipole
import Verif.Relative.Isospin
import Verif.Relative.IsospinProps
import Verif.Relative.JPV
import Verif.Relative.JPVProps
import Verif.Relative.PN
import Verif.Relative.RelXform
import Verif.Moshinsky.Bracket
import Verif.Moshinsky.BracketProps
import Verif.Moshinsky.MemoProps
import Verif.Moshinsky.Solid
import Verif.Moshinsky.Oscillator
import Verif.Moshinsky.Fock
import Verif.Moshinsky.Overlap
import Verif.Moshinsky.OverlapLower
import Verif.Moshinsky.OverlapProps
import Verif.Moshinsky.Coupling
import Verif.Moshinsky.CouplingNorm
import Verif.Moshinsky.Recoupling
import Verif.Moshinsky.Spinor
import Verif.Moshinsky.Contract
import Verif.Moshinsky.Null
import Verif.Moshinsky.SeedGen
import Verif.Moshinsky.SeedTens
import Verif.Moshinsky.SeedCoeff
import Verif.Moshinsky.SeedSum
import Verif.Moshinsky.SeedNorm
import Verif.Moshinsky.SeedOverlap
import Verif.Moshinsky.SixJ
import Verif.Moshinsky.OverlapRun
import Verif.Moshinsky.Ortho
import Verif.Moshinsky.Rotation
import Verif.Moshinsky.Complete
import Verif.Moshinsky.Orthogonal
import Verif.Moshinsky.Branch
import Verif.Moshinsky.BranchModel
import Verif.Moshinsky.BranchProps
import Verif.Moshinsky.Recouple
import Verif.Moshinsky.RelCM
import Verif.Moshinsky.Chain
import Verif.Moshinsky.ChainSpec
import Verif.Moshinsky.ChainRel
import Verif.Moshinsky.ChainLS
import Verif.Moshinsky.ChainJJ
import Verif.Moshinsky.ChainJT
import Verif.Moshinsky.Spaces
import Verif.Moshinsky.Program
import Verif.Moshinsky.ProgramSpec
import Verif.Moshinsky.ProgramLemmas
import Verif.Moshinsky.ProgramProps
import Verif.Moshinsky.ProgramFail
import Verif.Moshinsky.ProgramExamples
import Verif.Moshinsky.AntiSym
import Verif.Moshinsky.RelCMSource
import Verif.Obme.Model
import Verif.Obme.Spec
import Verif.Obme.Lemmas
import Verif.Obme.ProductProps
import Verif.Obme.SimilarityProps
import Verif.Obme.GenProps
import Verif.Obme.File
import Verif.Obme.FileProps
import Verif.Separable.Model
import Verif.Separable.Spec
import Verif.Separable.Lemmas
import Verif.Separable.Props
import Verif.Separable.IdentityProps
import Verif.Obme.RejectProps
import Verif.Mixer.Model
import Verif.Mixer.Spec
import Verif.Mixer.Lemmas
import Verif.Mixer.Props
import Verif.Mixer.SourceProps
import Verif.Mixer.XformProps
import Verif.Mixer.OneBody
import Verif.Mixer.OneBodySpec
import Verif.Mixer.OneBodyLemmas
import Verif.Mixer.OneBodyProps
import Verif.Mixer.OneBodyTarget
import Verif.Mixer.TwoBodyWitness
import Verif.Mixer.SeparableSource
import Verif.Mixer.OneBodyWitness
import Verif.Mixer.Control
import Verif.Mixer.ControlProps
import Verif.Mixer.ControlLines
import Verif.Mixer.ControlOb
import Verif.Mixer.BuiltinProps
import Verif.Mixer.Program
import Verif.Mixer.ProgramProps
import Verif.Count.Model
import Verif.Count.Spec
import Verif.Count.Lemmas
import Verif.Count.Sums
import Verif.Count.Props
import Verif.Count.AMCentric
import Verif.Count.Triangular
import Verif.Density.Model
import Verif.Density.Spec
import Verif.Density.Props
import Verif.Density.FileProps
import Verif.Density.Compare
import Verif.Density.Obscalc
import Verif.Density.ObscalcProps
import Verif.Density.Natorb
import Verif.Density.NatorbProps
import Verif.Relative.AmSpec
import Verif.Relative.Labels
import Verif.Relative.Construct
import Verif.Relative.States
import Verif.Relative.ConstructLemmas
import Verif.Relative.ConstructProps
import Verif.Relative.ConstructAm
import Verif.Relative.ConstructCasimir
import Verif.Relative.ConstructMultipole
import Verif.Relative.ConstructTable
import Verif.Relative.ConstructExamples
import Verif.Relative.Intrinsic
import Verif.Relative.N2LO
import Verif.Relative.N2LOSpec
import Verif.Relative.N2LOProps
import Verif.Relative.N2LOContact
import Verif.Relative.N2LOCartesian
import Verif.Relative.N2LOTable
import Verif.Mixer.Words
import Verif.Relative.Space
import Verif.Relative.Gen
import Verif.Relative.GenProps
import Verif.Relative.GenOperators
import Verif.Relative.GenExamples
import Verif.Relative.N2LOExamples
import Verif.Density.FileMore
import Verif.H2.Conv
import Verif.H2.ConvProps
import Verif.H2.ConvExamples
import Verif.H2.Stat
import Verif.H2.StatLemmas
import Verif.H2.StatProps
import Verif.Relative.SpaceIndex
import Verif.Relative.Converters
import Verif.Relative.JPVFile
import Verif.Relative.ConvertersProps
import Verif.Relative.PNFile
import Verif.Relative.XformProgram
import Verif.Relative.ConvertersExamples
import Verif.Obme.EwGen
import Verif.Obme.EwSpec
import Verif.Obme.EwLemmas
import Verif.Obme.EwProps
import Verif.Obme.EwExamples
import Verif.Osc.KSquare
import Verif.Obme.RadialGen
import Verif.Obme.RadialGenSpec
import Verif.Obme.RadialGenLemmas
import Verif.Obme.RadialGenProps
import Verif.Obme.RadialGenExamples
import Verif.Relative.NLOM1
import Verif.Relative.NLOM1Spec
import Verif.Relative.NLOM1Lemmas
import Verif.Relative.NLOM1Props
import Verif.Relative.NLOM1Program
import Verif.Relative.Racah
import Verif.Relative.NLOM1Cartesian
import Verif.Relative.NLOM1Table
import Verif.Relative.NLOM1Examples
import Verif.Obme.Extract
import Verif.Obme.ExtractProps
import Verif.Relative.JPVStat
import Verif.Relative.JPVStatProps
import Verif.Count.OrbitalGen
import Verif.Count.OrbitalGenProps
import Verif.Script.GenerateInput
import Verif.Script.GenerateInputProps
import Verif.Script.Hamiltonian
import Verif.Script.Examples
import Verif.Script.CompareMe
import Verif.Script.CompareMeProps
import Verif.Script.Partitioning
import Verif.Script.PartitioningProps
import Verif.Daejeon.Number
import Verif.Daejeon.Tables1
import Verif.Daejeon.Tables2
import Verif.Daejeon.Tables3
import Verif.Daejeon.Tables4
import Verif.Daejeon.Tables5
import Verif.Daejeon.Tables6
import Verif.Daejeon.Tables7
import Verif.Daejeon.Tables8
import Verif.Daejeon.Model
import Verif.Daejeon.TableProps
import Verif.Daejeon.Props
import Verif.Daejeon.Program
import Verif.SU2.Coeff
import Verif.SU2.Multiplet
import Verif.SU2.Complete
import Verif.SU2.Scheme
import Verif.SU2.Recouple
import Verif.SU2.Symmetry
import Verif.SU2.Vector
import Verif.SU2.Product
import Verif.Relative.TrueAm
import Verif.Moshinsky.Nucleons
import Verif.Moshinsky.NucleonOps
import Verif.Moshinsky.NucleonRel
import Verif.Moshinsky.NucleonNorm
import Verif.Moshinsky.NucleonCoeff
import Verif.Moshinsky.NucleonSwap
import Verif.Moshinsky.NucleonJJ
import Verif.Moshinsky.NucleonPN
import Verif.Moshinsky.NucleonUnit
import Verif.Moshinsky.NucleonRun
import Verif.Moshinsky.NucleonExample
import Verif.Relative.TrueReduced
import Verif.Moshinsky.NucleonBridge
import Verif.Moshinsky.NucleonGen
import Verif.Moshinsky.NucleonPhys
import Verif.Moshinsky.NucleonQuad
import Verif.Moshinsky.NucleonActs
import Verif.Moshinsky.NucleonGenExample
import Verif.Moshinsky.NucleonCoulomb
import Verif.Moshinsky.NucleonCoulombExample
import Verif.Moshinsky.NucleonInteraction
import Verif.Moshinsky.NucleonInteractionExample
import Verif.Relative.TrueProduct
import Verif.Separable.TrueAm
import Verif.Separable.Nucleons
import Verif.Separable.OneNucleon
import Verif.Mixer.NucleonSource
import Verif.Separable.OneNucleonOps
import Verif.Separable.OneNucleonSpin
import Verif.Separable.OneNucleonSquare
import Verif.Mixer.Meaning
import Verif.Mixer.NucleonBuiltin
import Verif.Mixer.NucleonGenerated
import Verif.Mixer.Compose
import Verif.Mixer.Denote
import Verif.Mixer.TwoNucleons
import Verif.Mixer.TwoNucleonsXform
import Verif.Mixer.PairNorm
import Verif.Mixer.Denote2
import Verif.Mixer.Denote2Witness
import Verif.Mixer.Joined
import Verif.Mixer.JoinedOps
import Verif.Mixer.JoinedNamed
import Verif.Mixer.Routes
import Verif.Mixer.RoutesWitness
import Verif.Mixer.ProgramLinear
import Verif.Moshinsky.NucleonIdentity
import Verif.Moshinsky.NucleonSymmUnit
import Verif.Relative.TrueCurrent
import Verif.Moshinsky.NucleonAxial
import Verif.Moshinsky.NucleonAxialExample
import Verif.Relative.TrueMagnetic
import Verif.Relative.TrueMagneticExample
import Verif.Moshinsky.NucleonMagnetic
import Verif.Moshinsky.NucleonMagneticExample
import Verif.Osc.Schroedinger
import Verif.Script.OscillatorLength
