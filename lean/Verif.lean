import Verif.Lemmas.BruteForce
import Verif.Lemmas.Canonical
import Verif.Lemmas.ClassGens
import Verif.Lemmas.ClassGroups
import Verif.Lemmas.ClassNear
import Verif.Lemmas.ClassSym
import Verif.Lemmas.Classify
import Verif.Lemmas.Cubic
import Verif.Lemmas.CubicMem
import Verif.Lemmas.Delint
import Verif.Lemmas.DelintClass
import Verif.Lemmas.DelintWrong
import Verif.Lemmas.Farkas
import Verif.Lemmas.Float
import Verif.Lemmas.FloatCubic
import Verif.Lemmas.FloatGen1
import Verif.Lemmas.FloatGen2
import Verif.Lemmas.FortranBase
import Verif.Lemmas.FortranBuf
import Verif.Lemmas.FortranCompare
import Verif.Lemmas.FortranCubic
import Verif.Lemmas.FortranDens
import Verif.Lemmas.FortranFind
import Verif.Lemmas.FortranGood
import Verif.Lemmas.FortranId
import Verif.Lemmas.FortranIdNear
import Verif.Lemmas.FortranInput
import Verif.Lemmas.FortranMem1
import Verif.Lemmas.FortranMem2
import Verif.Lemmas.FortranMem3
import Verif.Lemmas.FortranNiggli
import Verif.Lemmas.FortranNodup
import Verif.Lemmas.FortranOutput
import Verif.Lemmas.FortranSelect
import Verif.Lemmas.FortranSize
import Verif.Lemmas.FortranStops
import Verif.Lemmas.FortranW
import Verif.Lemmas.FortranWBase
import Verif.Lemmas.GenBase
import Verif.Lemmas.GenMem1
import Verif.Lemmas.GenMem2
import Verif.Lemmas.GenMem3
import Verif.Lemmas.GenNodup
import Verif.Lemmas.Grid
import Verif.Lemmas.GridComplete
import Verif.Lemmas.GroupGens
import Verif.Lemmas.HNF
import Verif.Lemmas.Hermite
import Verif.Lemmas.IrrScale
import Verif.Lemmas.Irreducible
import Verif.Lemmas.IrreducibleGroup
import Verif.Lemmas.IsInt
import Verif.Lemmas.LatticeSym
import Verif.Lemmas.ListRead
import Verif.Lemmas.LoopExit
import Verif.Lemmas.MayCheck
import Verif.Lemmas.MayPass
import Verif.Lemmas.MayPy
import Verif.Lemmas.MayTable
import Verif.Lemmas.Metric
import Verif.Lemmas.NiggliCheck
import Verif.Lemmas.NiggliUnique
import Verif.Lemmas.OneGrid
import Verif.Lemmas.PackTable
import Verif.Lemmas.Packing
import Verif.Lemmas.Poscar
import Verif.Lemmas.PyArith
import Verif.Lemmas.RealClass
import Verif.Lemmas.RealClassPy
import Verif.Lemmas.ReducedMin
import Verif.Lemmas.Reduction
import Verif.Lemmas.RegularShift
import Verif.Lemmas.Rounded
import Verif.Lemmas.RoundedArith
import Verif.Lemmas.RoundedBasis
import Verif.Lemmas.RoundedCell
import Verif.Lemmas.RoundedCompare
import Verif.Lemmas.RoundedId
import Verif.Lemmas.RoundedInput
import Verif.Lemmas.RoundedPack
import Verif.Lemmas.RoundedPy
import Verif.Lemmas.RoundedPyId
import Verif.Lemmas.RoundedRun
import Verif.Lemmas.RoundedSupercells
import Verif.Lemmas.RoundedTransform
import Verif.Lemmas.SameGrid
import Verif.Lemmas.SameSearch
import Verif.Lemmas.Scale
import Verif.Lemmas.Select
import Verif.Lemmas.Skew
import Verif.Lemmas.StructEnum
import Verif.Lemmas.StructEnumText
import Verif.Lemmas.Supercells
import Verif.Lemmas.SymCertI
import Verif.Lemmas.SymCertII
import Verif.Lemmas.SymPairs
import Verif.Lemmas.SymTree
import Verif.Lemmas.Termination
import Verif.Lemmas.TolRange
import Verif.Lemmas.TolTable
import Verif.Lemmas.Tric
import Verif.Lemmas.TricSearch
import Verif.Lemmas.TwoGrids
import Verif.Lemmas.UniqCertI
import Verif.Lemmas.UniqCertII
import Verif.Lemmas.UniqCertM
import Verif.Lemmas.UniqTree
import Verif.Lemmas.Volumes
import Verif.Model.Arith
import Verif.Model.BasisCheck
import Verif.Model.BruteForce
import Verif.Model.FortranDelint
import Verif.Model.FortranDriver
import Verif.Model.FortranGen
import Verif.Model.FortranGrid
import Verif.Model.FortranInput
import Verif.Model.FortranMain
import Verif.Model.FortranNiggli
import Verif.Model.FortranOutput
import Verif.Model.FortranPack
import Verif.Model.FortranPoscar
import Verif.Model.FortranTransform
import Verif.Model.Generators
import Verif.Model.LatId
import Verif.Model.ListRead
import Verif.Model.Niggli
import Verif.Model.PyArith
import Verif.Model.Rounded
import Verif.Model.RoundedChoice
import Verif.Model.RoundedCompare
import Verif.Model.RoundedFind
import Verif.Model.RoundedInput
import Verif.Model.RoundedMain
import Verif.Model.RoundedPack
import Verif.Model.RoundedSearch
import Verif.Model.RoundedTransform
import Verif.Model.RoundedUniversal
import Verif.Model.StructEnum
import Verif.Model.Universal
import Verif.Props.AccurateId
import Verif.Props.AccuratePy
import Verif.Props.AllGrids
import Verif.Props.Basics
import Verif.Props.BasisCheck
import Verif.Props.BestGrid
import Verif.Props.BruteForce
import Verif.Props.ClassNear
import Verif.Props.Classify
import Verif.Props.Float
import Verif.Props.Fortran
import Verif.Props.FortranBasis
import Verif.Props.FortranBuf
import Verif.Props.FortranCompare
import Verif.Props.FortranDelint
import Verif.Props.FortranDens
import Verif.Props.FortranDensity
import Verif.Props.FortranDriver
import Verif.Props.FortranFind
import Verif.Props.FortranFindCubic
import Verif.Props.FortranId
import Verif.Props.FortranInput
import Verif.Props.FortranKgrid
import Verif.Props.FortranMain
import Verif.Props.FortranNiggli
import Verif.Props.FortranOffsets
import Verif.Props.FortranOutput
import Verif.Props.FortranPack
import Verif.Props.FortranPoscar
import Verif.Props.FortranSelect
import Verif.Props.FortranSize
import Verif.Props.FortranStops
import Verif.Props.FortranZone
import Verif.Props.Generators
import Verif.Props.GroupGens
import Verif.Props.LatticeSym
import Verif.Props.ListRead
import Verif.Props.NearlySymmetric
import Verif.Props.Niggli
import Verif.Props.NiggliScale
import Verif.Props.NiggliTotal
import Verif.Props.NiggliUnique
import Verif.Props.OneOffset
import Verif.Props.Reduction
import Verif.Props.RoundedAllGrids
import Verif.Props.RoundedBasis
import Verif.Props.RoundedChoice
import Verif.Props.RoundedCompare
import Verif.Props.RoundedCubicSearch
import Verif.Props.RoundedEnds
import Verif.Props.RoundedFind
import Verif.Props.RoundedGrid
import Verif.Props.RoundedInput
import Verif.Props.RoundedPack
import Verif.Props.RoundedProgram
import Verif.Props.RoundedSearch
import Verif.Props.RoundedSupercells
import Verif.Props.RoundedTransform
import Verif.Props.RoundedTricSearch
import Verif.Props.SameGrid
import Verif.Props.SameSupercells
import Verif.Props.SameTriclinic
import Verif.Props.ShiftSymmetry
import Verif.Props.ShiftedGrid
import Verif.Props.StructEnum
import Verif.Props.Supercells
import Verif.Props.TriclinicGrid
import Verif.Props.Volumes
import Verif.Props.WidestGrid
import Verif.Spec.Accurate
import Verif.Spec.AllGrids
import Verif.Spec.Apart
import Verif.Spec.Boundary
import Verif.Spec.Cell
import Verif.Spec.Classify
import Verif.Spec.Delint
import Verif.Spec.Density
import Verif.Spec.ErrorBounds
import Verif.Spec.Float
import Verif.Spec.Fractions
import Verif.Spec.Gap
import Verif.Spec.Grid
import Verif.Spec.HalfShift
import Verif.Spec.Inputs
import Verif.Spec.Int32
import Verif.Spec.Irreducible
import Verif.Spec.Kpoints
import Verif.Spec.KpointsList
import Verif.Spec.Lattice
import Verif.Spec.Longest
import Verif.Spec.NearlyWidest
import Verif.Spec.NiggliClass
import Verif.Spec.Numeral
import Verif.Spec.PackErr
import Verif.Spec.Packing
import Verif.Spec.PointSym
import Verif.Spec.PointsErr
import Verif.Spec.Poscar
import Verif.Spec.RegularShift
import Verif.Spec.RelTolerance
import Verif.Spec.Relative
import Verif.Spec.SameCrystal
import Verif.Spec.Shift
import Verif.Spec.StructEnum
import Verif.Spec.SupercellErr
import Verif.Spec.SymGrid
import Verif.Spec.Tolerance
import Verif.Spec.Widest
