import Verif.Model.Basic
import Verif.Model.Etree
import Verif.Model.Octant
import Verif.Model.Geometry
import Verif.Model.Float
import Verif.Model.Ieee
import Verif.Model.ErrorHandler
import Verif.Model.Rounding
import Verif.Model.Query
import Verif.Model.QueryApi
import Verif.Model.Run
import Verif.Model.Projector
import Verif.Model.AvgEngine
import Verif.Model.Create
import Verif.Model.Stream
import Verif.Model.GridIngester
import Verif.Model.VsGrader
import Verif.Model.GradeApp
import Verif.Model.GradeConsole
import Verif.Model.Handles
import Verif.Model.Heap
import Verif.Model.Print
import Verif.Model.QueryConsole
import Verif.Model.CExampleConsole
import Verif.Model.IsoConsole
import Verif.Model.Scientific
import Verif.Model.FExampleConsole
import Verif.Model.CppExample
import Verif.Model.InfoConsole
import Verif.Model.CppConsole
import Verif.Model.IsoHeap
import Verif.Model.CppHeap
import Verif.Model.GraderHeap
import Verif.Model.CExampleHeap
import Verif.Model.QueryArgs
import Verif.Model.IsoArgs
import Verif.Model.CppArgs
import Verif.Model.CenCalVMDB
import Verif.Model.CApi
import Verif.Model.QueryApp
import Verif.Model.IsoApp
import Verif.Model.Averager
import Verif.Model.FileApps
import Verif.Model.Console
import Verif.Model.Fortran
import Verif.Model.CExample
import Verif.Model.FExample
import Verif.Model.PyDB
import Verif.Spec.Octree
import Verif.Spec.Geometry
import Verif.Spec.Query
import Verif.Spec.Rounding
import Verif.Spec.Average
import Verif.Spec.AvgVolume
import Verif.Spec.Create
import Verif.Spec.Grade
import Verif.Spec.GradeApp
import Verif.Spec.GradeFloat
import Verif.Spec.GradeRound
import Verif.Spec.GroundFloat
import Verif.Spec.Console
import Verif.Spec.GradeConsole
import Verif.Spec.Handles
import Verif.Spec.Column
import Verif.Spec.Heap
import Verif.Spec.Print
import Verif.Spec.QueryConsole
import Verif.Spec.CExampleConsole
import Verif.Spec.IsoConsole
import Verif.Spec.Scientific
import Verif.Spec.FExampleConsole
import Verif.Spec.CppExample
import Verif.Spec.GraderHeap
import Verif.Spec.CExample
import Verif.Spec.FExample
import Verif.Spec.PyDB
import Verif.Spec.CenCalVMDB
import Verif.Spec.CApi
import Verif.Spec.QueryApp
import Verif.Spec.QueryLog
import Verif.Spec.QueryFloat
import Verif.Spec.IsoApp
import Verif.Spec.IsoFloat
import Verif.Spec.FileApps
import Verif.Spec.EndToEnd
import Verif.Spec.IngestFloat
import Verif.Spec.Fortran
import Verif.Lemmas.Octree
import Verif.Lemmas.Octant
import Verif.Lemmas.Geometry
import Verif.Lemmas.Search
import Verif.Lemmas.Query
import Verif.Lemmas.Float
import Verif.Lemmas.GeomFloat
import Verif.Lemmas.Ieee
import Verif.Lemmas.AvgFloat
import Verif.Lemmas.GradeFloat
import Verif.Lemmas.GradeRound
import Verif.Lemmas.GroundFloat
import Verif.Lemmas.Console
import Verif.Lemmas.GradeConsole
import Verif.Lemmas.Handles
import Verif.Lemmas.HandlesSame
import Verif.Lemmas.Heap
import Verif.Lemmas.HeapQuery
import Verif.Lemmas.HeapMore
import Verif.Lemmas.Print
import Verif.Lemmas.PrintRun
import Verif.Lemmas.PrintText
import Verif.Lemmas.QueryConsole
import Verif.Lemmas.CExampleConsole
import Verif.Lemmas.IsoConsole
import Verif.Lemmas.Scientific
import Verif.Lemmas.FExampleConsole
import Verif.Lemmas.CppExample
import Verif.Lemmas.InfoConsole
import Verif.Lemmas.CppConsole
import Verif.Lemmas.IsoHeap
import Verif.Lemmas.CppHeap
import Verif.Lemmas.GraderHeap
import Verif.Lemmas.CExampleHeap
import Verif.Lemmas.QueryArgs
import Verif.Lemmas.IsoArgs
import Verif.Lemmas.CExample
import Verif.Lemmas.FExample
import Verif.Lemmas.PyDB
import Verif.Lemmas.QuerySpec
import Verif.Lemmas.QueryEffects
import Verif.Lemmas.AvgSeg
import Verif.Lemmas.AvgStep
import Verif.Lemmas.AvgLoops
import Verif.Lemmas.AvgMain
import Verif.Lemmas.AvgResult
import Verif.Lemmas.AvgMean
import Verif.Lemmas.AvgFacts
import Verif.Lemmas.AvgFaults
import Verif.Lemmas.AvgQuery
import Verif.Lemmas.AvgRoot
import Verif.Lemmas.Create
import Verif.Lemmas.GradeLine
import Verif.Lemmas.GradeVolume
import Verif.Lemmas.GradeExtract
import Verif.Lemmas.GradeBound
import Verif.Lemmas.GradeRun
import Verif.Lemmas.GradeTotal
import Verif.Lemmas.GradeApp
import Verif.Lemmas.CenCalVMDB
import Verif.Lemmas.CApi
import Verif.Lemmas.QueryFrame
import Verif.Lemmas.QueryApp
import Verif.Lemmas.QueryLog
import Verif.Lemmas.QueryFloat
import Verif.Lemmas.WaveEndToEnd
import Verif.Lemmas.FixedCell
import Verif.Lemmas.IngestFloat
import Verif.Lemmas.WaveFloat
import Verif.Lemmas.IsoApp
import Verif.Lemmas.IsoRun
import Verif.Lemmas.IsoFloat
import Verif.Lemmas.CreateOrder
import Verif.Lemmas.AvgLocal
import Verif.Lemmas.AvgVolume
import Verif.Lemmas.Fortran
import Verif.Props.Geometry
import Verif.Props.ErrorHandler
import Verif.Props.ExampleData
import Verif.Props.Query
import Verif.Props.QueryValues
import Verif.Props.Lifecycle
import Verif.Props.Average
import Verif.Props.Create
import Verif.Props.Grade
import Verif.Props.GradeApp
import Verif.Props.CenCalVMDB
import Verif.Props.CApi
import Verif.Props.QueryApp
import Verif.Props.QueryLog
import Verif.Props.QueryFloat
import Verif.Props.IsoApp
import Verif.Props.IsoFloat
import Verif.Props.FileApps
import Verif.Props.CreateOrder
import Verif.Props.AvgLocal
import Verif.Props.AvgVolume
import Verif.Props.EndToEnd
import Verif.Props.WaveEndToEnd
import Verif.Props.IngestFloat
import Verif.Props.WaveFloat
import Verif.Props.Ieee
import Verif.Props.Projector
import Verif.Props.Float
import Verif.Props.AvgFloat
import Verif.Props.GradeFloat
import Verif.Props.GradeRound
import Verif.Props.GroundFloat
import Verif.Props.SpatialFloat
import Verif.Props.Console
import Verif.Props.GradeConsole
import Verif.Props.Column
import Verif.Props.Handles
import Verif.Props.Heap
import Verif.Props.Print
import Verif.Props.QueryConsole
import Verif.Props.CExampleConsole
import Verif.Props.IsoConsole
import Verif.Props.Scientific
import Verif.Props.FExampleConsole
import Verif.Props.CppExample
import Verif.Props.InfoConsole
import Verif.Props.CppConsole
import Verif.Props.IsoHeap
import Verif.Props.CppHeap
import Verif.Props.GraderHeap
import Verif.Props.CExampleHeap
import Verif.Props.QueryArgs
import Verif.Props.IsoArgs
import Verif.Props.CppArgs
import Verif.Props.CExample
import Verif.Props.FExample
import Verif.Props.PyDB
import Verif.Axioms
