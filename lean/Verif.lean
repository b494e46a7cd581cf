import Verif.Props.Elementwise
import Verif.Props.Bitrev
import Verif.Props.Transforms
import Verif.Props.Inverse
import Verif.Props.Products
import Verif.Props.Tables
import Verif.Props.RedElementwise
import Verif.Props.RedTransforms
import Verif.Props.RedProducts
import Verif.Props.Naive
import Verif.Props.Agree
import Verif.Props.Safety
import Verif.Props.Reciprocal
import Verif.Props.RedBounds
import Verif.Props.Intervals
import Verif.Props.NttRedInterval
import Verif.Props.Sort
import Verif.Props.Crab
import Verif.Props.AnyTable
import Verif.Props.Trace
import Verif.Props.Warnings
import Verif.Props.AsmElementwise
import Verif.Props.AsmTransforms
import Verif.Props.AsmProducts
import Verif.Props.AbsElementwise
import Verif.Props.TableFiles
import Verif.Props.Wrappers
import Verif.Props.TraceAsm
import Verif.Props.Shared
import Verif.Props.InPlace
import Verif.Props.PaperTests
import Verif.Props.TestPrograms
import Verif.Props.TestSpeed
import Verif.Props.TestTrips
import Verif.Props.Kat
import Verif.Props.RepeatedProducts
import Verif.Props.TestTables
import Verif.Props.TestNtt
import Verif.Props.TestNttRed
import Verif.Props.TestRed
import Verif.Props.TestMod
import Verif.Props.TestRedBounds
import Verif.Props.TestAvx
import Verif.Props.Layout
import Verif.Props.TestNttAvx
import Verif.Model.Harness
import Verif.Model.Roots
import Verif.Props.Harness
import Verif.Props.Roots
import Verif.Props.Tight
import Verif.Props.Release
import Verif.Props.Algebra
import Verif.Props.Jumps
import Verif.Props.Machine
import Verif.Props.MachineProducts
import Verif.Props.MachineAccess
import Verif.Props.MachineThreads
import Verif.Props.MachineTrace
import Verif.Props.Notes
import Verif.Props.NotesBounds
import Verif.Props.TestShift
import Verif.Props.Source
import Verif.Props.SourceAsm
import Verif.Props.SourceFun
import Verif.Props.SourceGen
import Verif.Props.Build
import Verif.Props.SourceBounds
import Verif.Props.SourceAddr
import Verif.Props.SourceRelease
import Verif.Props.BuildAsm
import Verif.Props.SourcePrint
import Verif.Props.SourceTables
import Verif.Props.SourceTrace
import Verif.Props.SourceInPlace
import Verif.Props.SourceChecks
import Verif.Props.SourceMod
import Verif.Props.SourceAbs
import Verif.Props.SourceAvx
import Verif.Props.SourceBoth
