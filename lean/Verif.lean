import Verif.Props.NDArray
import Verif.Props.Bin
import Verif.Props.Interp
import Verif.Props.FieldConform
import Verif.Props.FieldStale
import Verif.Props.BinTerm
import Verif.Props.Vtk
import Verif.Props.Handle
import Verif.Props.Func
import Verif.Props.Series
import Verif.Props.Piecewise
import Verif.Props.Library
import Verif.Props.Testlib
import Verif.Props.TestlibPiecewise
import Verif.Props.Extern
import Verif.Props.SeriesMore
import Verif.Props.Python
import Verif.Props.ExternMore
import Verif.Props.BodyExtern
import Verif.Props.Reread
import Verif.Props.Coordinate
import Verif.Props.PyField
import Verif.Props.RoundedBin
import Verif.Props.RoundedField
import Verif.Props.ExternBasis
import Verif.Props.FieldFunc
import Verif.Props.PyObject
import Verif.Props.LwText
import Verif.Props.LwMain
import Verif.Props.RoundedSeries
import Verif.Props.ElemObject
import Verif.Props.VtkCut
import Verif.Props.VtkMisfit
import Verif.Props.RoundedHex
import Verif.Props.FieldLinear
import Verif.Props.FieldCont
import Verif.Props.Field3DMore
import Verif.Props.LwCrash
import Verif.Props.Threads
import Verif.Props.RoundedTestlib
import Verif.Props.FieldMove
import Verif.Props.ThreadsLock
import Verif.Props.Special
import Verif.Props.SpecialPiecewise
import Verif.Props.NumText
import Verif.Props.RoundedFile
import Verif.Props.Binary64
import Verif.Props.Numeral
import Verif.Props.Smooth
import Verif.Props.Rename
import Verif.Props.Order
import Verif.Props.UnitsFl
import Verif.Props.History
import Verif.Props.Binary64Series
import Verif.Props.RoundedTerm
import Verif.Props.ThreadsSeries
import Verif.Props.SeriesThrow
import Verif.Props.BigMesh
import Verif.Props.FieldFirst
import Verif.Props.FieldTurn
import Verif.Props.ChebSeries
import Verif.Props.Binary64Cheb
import Verif.Props.ThreadsFunc
import Verif.Props.BigMeshFloat
import Verif.Props.ThreadsPiecewise
import Verif.Props.BodyCopy
import Verif.Props.FieldStaleMore
import Verif.Props.BinEdge
import Verif.Props.FieldHess3D
import Verif.Props.SeriesStale
import Verif.Props.FieldCont3D
import Verif.Props.ThreadsBin
import Verif.Props.FuncDefault
import Verif.Props.LwShell
import Verif.Props.FieldLocal
import Verif.Props.FieldRefine
import Verif.Props.PiecewiseOrder
import Verif.Props.SeriesReorder
import Verif.Props.PieceText
import Verif.Props.CellOrder
import Verif.Props.CellOrderFl
import Verif.Props.LibOrder
import Verif.Props.PieceNest
