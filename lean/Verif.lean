import Verif.Num
import Verif.Validate
import Verif.Meth
import Verif.Ring
import Verif.RingSystem
import Verif.Props.Validate
import Verif.Props.Ring
import Verif.Props.RingSystemEdit
import Verif.Props.SplitMerge
import Verif.Props.RingSystemInv
import Verif.RingHeap
import Verif.Props.RingHeap
import Verif.Double
import Verif.Props.Rounding
import Verif.RingPatch
import Verif.Props.RingPatch
import Verif.Files
import Verif.FilesLemmas
import Verif.GridParameters
import Verif.GridRounded
import Verif.Props.GridParameters
import Verif.Props.GridFiles
import Verif.GridDiagnostics
import Verif.Props.GridDiagnostics
import Verif.GridProperty
import Verif.Props.GridProperty
import Verif.Props.GridGradient
import Verif.Viewer
import Verif.Props.Viewer
import Verif.RealFns
import Verif.Geometry
import Verif.Props.Geometry
import Verif.Cube
import Verif.CubeLemmas
import Verif.Shallot
import Verif.BuildGrid
import Verif.Props.Quadrants
import Verif.Props.Sampling
import Verif.Props.SmallestDisk
import Verif.Props.Convergence
import Verif.Props.Build
import Verif.Props.Complete
import Verif.Props.Keeps
import Verif.Props.Sound
import Verif.Props.Getters
import Verif.Props.GettersExact
import Verif.Props.AddGradients
import Verif.Props.Remove
import Verif.Props.RemoveRepeated
import Verif.Props.Fit
import Verif.Props.Measured
import Verif.Props.Rescale
import Verif.Props.RescaleFailed
import Verif.Props.Points
import Verif.Props.Solutions
import Verif.Props.SolutionsExact
import Verif.Props.Solved
import Verif.Props.Refit
import Verif.Props.Disks
import Verif.Props.Closest
import Verif.ShallotFiles
import Verif.Props.ShallotSave
import Verif.Props.ShallotLoad
import Verif.Props.Owned
import Verif.Props.RoundTrip
import Verif.Props.BuildFrom
import Verif.Props.SavedBuild
import Verif.Props.Resume
import Verif.Props.Resumed
import Verif.Report
import Verif.Props.Scheme
import Verif.Props.Report
import Verif.Props.Contrast
import Verif.Props.GridReport
import Verif.RingDraw
import Verif.Props.RingDraw
import Verif.PropertyHeap
import Verif.Props.PropertyHeap
import Verif.Props.SplitRounded
import Verif.RingLog
import Verif.Props.RingLog
import Verif.Props.GetGradients
import Verif.PlotSlice
import Verif.Props.PlotSlice
import Verif.Props.Covered
import Verif.Props.Tangent
import Verif.Props.Candidate
import Verif.Props.Printed
import Verif.Props.Explained
import Verif.ShallotLog
import Verif.Props.ShallotLog
import Verif.Props.GridRounded
import Verif.Props.Cases
import Verif.GridLogger
import Verif.Props.GridLogger
import Verif.Texts
import Verif.Props.Digits
import Verif.Props.Words
import Verif.Props.Texts
import Verif.Props.GridTexts
import Verif.GridHeap
import Verif.GridHeapBuild
import Verif.Props.GridHeap
import Verif.Props.GridRefine
import Verif.Props.GridMethods
import Verif.Props.GridMethodsGradients
import Verif.Props.GridSession
import Verif.Props.GridBuildRefine
import Verif.Props.GridObjects
import Verif.GeometryRounded
import Verif.Props.Near
import Verif.Props.GeometryRounded
import Verif.Props.AxesRounded
import Verif.Props.DoubleLib
import Verif.Props.EdgeRounded
import Verif.GradientRounded
import Verif.Props.GradientRounded
import Verif.FitRounded
import Verif.Props.FitRounded
import Verif.BuildRounded
import Verif.Props.BuildRounded
import Verif.Props.SteepRounded
import Verif.Props.Recovery
import Verif.Props.RecoveryRounded
import Verif.ClosestRounded
import Verif.Props.ClosestRounded
import Verif.Props.HillRounded
import Verif.StatsRounded
import Verif.Props.StatsRounded
import Verif.Props.ExtendedRounded
import Verif.Notebook
import Verif.Props.Notebook
import Verif.Props.NotebookRings
import Verif.NotebookData
import Verif.Props.NotebookData
import Verif.Props.NotebookPaper
import Verif.Props.Reanalysis
import Verif.Props.ReanalysisAny
import Verif.Messages
import Verif.ConstructorMessages
import Verif.Props.Messages
import Verif.Props.ConstructorMessages
import Verif.Props.OverlapMessages
import Verif.PatchRounded
import Verif.DrawRounded
import Verif.Props.PatchRounded
import Verif.Props.DrawRounded
import Verif.NotebookRounded
import Verif.Props.NotebookRounded
import Verif.Conformance.Validate
import Verif.Conformance.Ring
import Verif.Conformance.RingSystem
import Verif.Conformance.GridParameters
import Verif.Conformance.GridDiagnostics
import Verif.Conformance.GridProperty
import Verif.Conformance.GridGradient
import Verif.Conformance.Names
import Verif.Conformance.Viewer
import Verif.Conformance.Texts
import Verif.Conformance.Messages
import Verif.ViewerRounded
import Verif.ViewerShared
import Verif.Props.ViewerRounded
import Verif.Props.ViewerShared
import Verif.BuildLog
import Verif.Props.BuildLog
import Verif.Props.BuildSays
import Verif.Props.Stale
import Verif.Props.AddExact
import Verif.Props.Frame
import Verif.Props.Exceptions
import Verif.Props.Divisions
import Verif.Props.RingExceptions
import Verif.Props.EditLaws
import Verif.Props.Undo
import Verif.Props.RescaleLaws
import Verif.Props.FitOrder
import Verif.Props.ChangeTexts
import Verif.Props.RemoveLaws
import Verif.Props.ScrollLaws
import Verif.Props.HillOrder
import Verif.Props.Repeat
import Verif.Props.RepeatReads
import Verif.Props.ReadOrder
import Verif.Props.MapOrder
import Verif.Props.SaveAgain
import Verif.Props.SaveApart
