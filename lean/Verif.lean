import Verif.Model.FP
import Verif.Model.Ext
import Verif.Model.Stl
import Verif.Model.Ast
import Verif.Model.Main
import Verif.Props.Orders
import Verif.Props.Cull
import Verif.Props.Views
import Verif.Props.Points
import Verif.Props.Index
import Verif.Props.StlFile
import Verif.Props.StlRoundTrip
import Verif.Props.Hidden
import Verif.Props.HiddenView
import Verif.Props.Lex
import Verif.Props.Parse
import Verif.Props.Circle
import Verif.Props.Pages
import Verif.Props.Blocks
import Verif.Props.Drawing
import Verif.Props.Text
import Verif.Props.Labels
import Verif.Props.Load
import Verif.Props.Junk
import Verif.Props.Main
import Verif.Props.Again
import Verif.Props.Numbers
import Verif.Props.Paint
import Verif.Props.PostScript
import Verif.Props.Round
import Verif.Props.DimLines
import Verif.Props.Leaders
import Verif.Props.AngleLines
import Verif.Props.SortIndep
import Verif.Props.FacetOrder
import Verif.Props.Resized
import Verif.Props.Turned
import Verif.Props.Models
import Verif.Props.Facing
import Verif.Props.Paper
import Verif.Spec.Accuracy
import Verif.Lemmas.Accuracy
import Verif.Lemmas.OnEdge
import Verif.Lemmas.AccuracyView
import Verif.Lemmas.AccuracyInk
import Verif.Lemmas.AccuracyDraw
import Verif.Lemmas.AccuracyFrame
import Verif.Props.Accuracy
import Verif.Spec.Clear
import Verif.Lemmas.ClearPair
import Verif.Lemmas.ClearFace
import Verif.Lemmas.ClearTurn
import Verif.Lemmas.ClearDraw
import Verif.Props.Clear
import Verif.Spec.Solid
import Verif.Lemmas.Solid
import Verif.Lemmas.SolidText
import Verif.Props.Solid
import Verif.Spec.Span
import Verif.Lemmas.SpanPair
import Verif.Lemmas.SpanLoop
import Verif.Lemmas.SpanFace
import Verif.Lemmas.SpanLines
import Verif.Lemmas.SpanTurn
import Verif.Lemmas.SpanDraw
import Verif.Lemmas.SpanMeans
import Verif.Props.Span
import Verif.Spec.SpanPaper
import Verif.Props.SpanPaper
import Verif.Spec.AccuracyDim
import Verif.Lemmas.AccuracyDim
import Verif.Lemmas.AccuracyAngle
import Verif.Props.AccuracyDim
import Verif.Props.AccuracyAngle
import Verif.Spec.PaperDouble
import Verif.Lemmas.PaperDouble
import Verif.Props.PaperDouble
import Verif.Spec.Snap
import Verif.Lemmas.Snap
import Verif.Props.Snap
import Verif.Spec.SnapAngle
import Verif.Spec.AngleNaN
import Verif.Spec.Swap
import Verif.Spec.Carried
import Verif.Lemmas.SnapAngle
import Verif.Lemmas.AngleNaN
import Verif.Lemmas.Swap
import Verif.Lemmas.Carried
import Verif.Props.SnapAngle
import Verif.Props.AngleNaN
import Verif.Props.Swap
import Verif.Props.Carried
import Verif.Spec.Hole
import Verif.Lemmas.Hole
import Verif.Props.Hole
import Verif.Check.Machine
import Verif.Check.Units
import Verif.Check.Cases
import Verif.Spec.NearDouble
import Verif.Lemmas.NearDouble
import Verif.Props.NearDouble
import Verif.Spec.StrokeDouble
import Verif.Spec.DimDone
import Verif.Lemmas.Recip
import Verif.Lemmas.StrokeDouble
import Verif.Lemmas.StrokeInk
import Verif.Lemmas.StrokeDim
import Verif.Lemmas.StrokeMeant
import Verif.Lemmas.StrokeMeant2
import Verif.Props.StrokeDouble
import Verif.Spec.DimPaper
import Verif.Lemmas.DimPaper
import Verif.Props.DimPaper
import Verif.Spec.Exec64
import Verif.Lemmas.Exec64
import Verif.Lemmas.ExecFit
import Verif.Lemmas.ExecModel
import Verif.Lemmas.Pin
import Verif.Spec.HoleDouble
import Verif.Props.HoleDouble
import Verif.Lemmas.Gauge
import Verif.Lemmas.FitDouble
import Verif.Lemmas.FitNear
import Verif.Spec.RimDouble
import Verif.Lemmas.CircleNear
import Verif.Lemmas.Fetch
import Verif.Lemmas.LocateNear
import Verif.Props.HoleDoubleFit
import Verif.Spec.HolesDouble
import Verif.Lemmas.HolesDouble
import Verif.Props.HolesDouble
import Verif.Spec.AngleDouble
import Verif.Lemmas.AngleDouble
import Verif.Lemmas.AngleInk
import Verif.Lemmas.AngleMeant
import Verif.Props.AngleDouble
import Verif.Lemmas.ArcPaper
import Verif.Spec.RoundDouble
import Verif.Lemmas.RoundInk
import Verif.Lemmas.RoundElbow
import Verif.Lemmas.RoundMeant
import Verif.Props.RoundDouble
import Verif.Spec.HoleFile
import Verif.Lemmas.HoleFile
import Verif.Lemmas.HoleSpan
import Verif.Props.HoleFile
import Verif.Props.HoleSpan
import Verif.Lemmas.HoleAngle
import Verif.Props.HoleAngle
import Verif.Spec.HoleTurn
import Verif.Props.HoleTurn
import Verif.Props.HoleRun
import Verif.Props.HoleRunTurn
import Verif.Props.PlateRun
import Verif.Spec.Place
import Verif.Props.Place
import Verif.Props.PlaceRun
import Verif.Spec.Reorder
import Verif.Props.Reorder
import Verif.Props.ReorderPaper
import Verif.Spec.Spelled
import Verif.Props.Spelled
