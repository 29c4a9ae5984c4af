import Verif.Undo.Props
import Verif.Mesh.Props
import Verif.RangeCheck.Props
import Verif.Circular.Props
import Verif.BBox.Props
import Verif.ErrorReport.Props
import Verif.LinAlg.Props
import Verif.Averaging.Props
import Verif.Api.Props
import Verif.Curvi.IndexProps
import Verif.Curvi.CleanProps
import Verif.Curvi.EditProps
import Verif.Curvi.RefineProps
import Verif.Curvi.BoundaryProps
import Verif.Polygons.ParseProps
import Verif.Polygons.ContainsProps
import Verif.Polygons.AreaProps
import Verif.Polygons.RefineProps
import Verif.Polygons.LinearProps
import Verif.Contacts.Props
import Verif.Network.Props
import Verif.Regions.Props
import Verif.Cache.Props
import Verif.Move.Props
import Verif.Curvi.DeleteProps
import Verif.Rect.Props
import Verif.Rect.SphericalProps
import Verif.Faces.Props
import Verif.Faces.GivenProps
import Verif.Ortho.Props
import Verif.Locate.Model
import Verif.Locate.Spec
import Verif.Locate.Lemmas
import Verif.Locate.Props
import Verif.Splines.Props
import Verif.Cross.Model
import Verif.Cross.Spec
import Verif.Cross.Lemmas
import Verif.Cross.WalkLemmas
import Verif.Cross.RingLemmas
import Verif.Cross.SegmentModel
import Verif.Cross.SegmentSpec
import Verif.Cross.SegmentLemmas
import Verif.Cross.Props
import Verif.Delete.Model
import Verif.Delete.Spec
import Verif.Delete.Lemmas
import Verif.Delete.FaceLemmas
import Verif.Delete.HangingLemmas
import Verif.Delete.Props
import Verif.Outline.Model
import Verif.Outline.Spec
import Verif.Outline.EvenLemmas
import Verif.Outline.Lemmas
import Verif.Outline.Props
import Verif.Refine.Model
import Verif.Refine.Spec
import Verif.Refine.Lemmas
import Verif.Refine.RoundLemmas
import Verif.Refine.RunLemmas
import Verif.Refine.ExactLemmas
import Verif.Refine.MaskLemmas
import Verif.Refine.LevelLemmas
import Verif.Refine.Example
import Verif.Refine.Props
import Verif.Transform.Model
import Verif.Transform.Lemmas
import Verif.Transform.Props
import Verif.Quality.Model
import Verif.Quality.Spec
import Verif.Quality.CentreLemmas
import Verif.Quality.TriangleLemmas
import Verif.Quality.Lemmas
import Verif.Quality.FaceLemmas
import Verif.Quality.Props
import Verif.CurviLine.Model
import Verif.CurviLine.MirrorModel
import Verif.CurviLine.Spec
import Verif.CurviLine.Lemmas
import Verif.CurviLine.AttractLemmas
import Verif.CurviLine.AttractProps
import Verif.CurviLine.ShiftLemmas
import Verif.CurviLine.SessionModel
import Verif.CurviLine.ShiftProps
import Verif.CurviLine.MirrorSpec
import Verif.CurviLine.MirrorLemmas
import Verif.CurviLine.MirrorProps
import Verif.Flip.Model
import Verif.Flip.Spec
import Verif.Flip.Lemmas
import Verif.Flip.FaceLemmas
import Verif.Flip.ListLemmas
import Verif.Flip.StepLemmas
import Verif.Flip.LoopLemmas
import Verif.Flip.StartLemmas
import Verif.Flip.EndLemmas
import Verif.Flip.Props
import Verif.Flip.Witness
import Verif.SplitRow.Model
import Verif.SplitRow.Spec
import Verif.SplitRow.Lemmas
import Verif.SplitRow.CollectLemmas
import Verif.SplitRow.SplitLemmas
import Verif.SplitRow.ElementLemmas
import Verif.SplitRow.RowLemmas
import Verif.SplitRow.DoneLemmas
import Verif.SplitRow.PartLemmas
import Verif.SplitRow.UsedLemmas
import Verif.SplitRow.PropsLemmas
import Verif.SplitRow.Props
import Verif.SplitRow.Witness
import Verif.Sampling.Model
import Verif.Sampling.Spec
import Verif.Sampling.Lemmas
import Verif.Sampling.PolygonLemmas
import Verif.Sampling.FaceLemmas
import Verif.Sampling.Props
import Verif.Sampling.NodeLemmas
import Verif.Sampling.NodeProps
import Verif.Sampling.Witness
import Verif.MergeClose.Model
import Verif.MergeClose.Spec
import Verif.MergeClose.Lemmas
import Verif.MergeClose.LoopLemmas
import Verif.MergeClose.EndLemmas
import Verif.MergeClose.Props
import Verif.MergeClose.Witness
import Verif.Gridded.Model
import Verif.Gridded.Spec
import Verif.Gridded.Lemmas
import Verif.Gridded.Props
import Verif.Gridded.Witness
import Verif.TriInterp.Model
import Verif.TriInterp.Spec
import Verif.TriInterp.TableLemmas
import Verif.TriInterp.GeoLemmas
import Verif.TriInterp.WalkLemmas
import Verif.TriInterp.ValueLemmas
import Verif.TriInterp.Props
import Verif.TriInterp.Witness
import Verif.Transfinite.Model
import Verif.Transfinite.Spec
import Verif.Transfinite.IndexLemmas
import Verif.Transfinite.SideLemmas
import Verif.Transfinite.FillLemmas
import Verif.Transfinite.MoveLemmas
import Verif.Transfinite.TriLemmas
import Verif.Transfinite.Props
import Verif.Transfinite.Witness
import Verif.Smooth.Model
import Verif.Smooth.Spec
import Verif.Smooth.Lemmas
import Verif.Smooth.StepLemmas
import Verif.Smooth.RuleLemmas
import Verif.Smooth.CallLemmas
import Verif.Smooth.Props
import Verif.Smooth.DirectLemmas
import Verif.Smooth.DirectProps
import Verif.Smooth.Witness
import Verif.InsertFace.Model
import Verif.InsertFace.Spec
import Verif.InsertFace.Lemmas
import Verif.InsertFace.Props
import Verif.InsertFace.Witness
import Verif.CurviSearch.Model
import Verif.CurviSearch.Spec
import Verif.CurviSearch.Lemmas
import Verif.CurviSearch.Props
import Verif.CurviSearch.Witness
import Verif.ToCurvi.Model
import Verif.ToCurvi.Spec
import Verif.ToCurvi.MeshLemmas
import Verif.ToCurvi.FrontLemmas
import Verif.ToCurvi.StepLemmas
import Verif.ToCurvi.RoundLemmas
import Verif.ToCurvi.GrowLemmas
import Verif.ToCurvi.ResultLemmas
import Verif.ToCurvi.LaidLemmas
import Verif.ToCurvi.LatticeLemmas
import Verif.ToCurvi.ConvertLemmas
import Verif.ToCurvi.Props
import Verif.ToCurvi.Witness
import Verif.Listing.Model
import Verif.Listing.Spec
import Verif.Listing.Lemmas
import Verif.Listing.NodeLemmas
import Verif.Listing.Props
import Verif.Listing.Witness
import Verif.InsertEdge.Model
import Verif.InsertEdge.Spec
import Verif.InsertEdge.Lemmas
import Verif.InsertEdge.Props
import Verif.InsertEdge.Witness
import Verif.Metrics.Model
import Verif.Metrics.Spec
import Verif.Metrics.Props
import Verif.Metrics.Witness
import Verif.Snap.Model
import Verif.Snap.Spec
import Verif.Snap.Lemmas
import Verif.Snap.LineLemmas
import Verif.Snap.NearestLemmas
import Verif.Snap.Props
import Verif.Snap.Witness
import Verif.PolyEdit.Model
import Verif.PolyEdit.Spec
import Verif.PolyEdit.Lemmas
import Verif.PolyEdit.ApiLemmas
import Verif.PolyEdit.Props
import Verif.PolyEdit.Witness
import Verif.EdgePick.Model
import Verif.EdgePick.Props
import Verif.Exchange.Model
import Verif.Exchange.Spec
import Verif.Exchange.Lemmas
import Verif.Exchange.Props
import Verif.Ridge.Model
import Verif.Ridge.Spec
import Verif.Ridge.Lemmas
import Verif.Ridge.Regular
import Verif.Ridge.Props
import Verif.SmallFlow.Model
import Verif.SmallFlow.Spec
import Verif.SmallFlow.AdminLemmas
import Verif.SmallFlow.FlowLemmas
import Verif.SmallFlow.TriangleLemmas
import Verif.SmallFlow.FindLemmas
import Verif.SmallFlow.LoopLemmas
import Verif.SmallFlow.Props
import Verif.Casulli.Model
import Verif.Casulli.Spec
import Verif.Casulli.UndoLemmas
import Verif.Casulli.FaceLemmas
import Verif.Casulli.TableLemmas
import Verif.Casulli.DiagonalLemmas
import Verif.Casulli.StoreLemmas
import Verif.Casulli.NodeLemmas
import Verif.Casulli.JoinLemmas
import Verif.Casulli.CornerLemmas
import Verif.Casulli.RemoveLemmas
import Verif.Casulli.MaskLemmas
import Verif.Casulli.CheckLemmas
import Verif.Casulli.Props
import Verif.Globe.Props
import Verif.GridOrtho.Props
import Verif.RoundGrid.Props
import Verif.Connect.Props
import Verif.Connect.GeometryProps
import Verif.Contacts.ProjectionProps
import Verif.Contacts.Lengths
import Verif.Contacts.LengthsProps
import Verif.Convert.Model
import Verif.Convert.Props
import Verif.Derefine.Model
import Verif.Derefine.Props
