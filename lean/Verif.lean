import Verif.Model.Access
import Verif.Model.Advance
import Verif.Model.Advection
import Verif.Model.Analytical
import Verif.Model.AutoChunks
import Verif.Model.Base
import Verif.Model.CGrid
import Verif.Model.CGrid3D
import Verif.Model.CGridRun
import Verif.Model.CGridSteps
import Verif.Model.CellAreas
import Verif.Model.ChunkSpec
import Verif.Model.Chunks
import Verif.Model.Codegen
import Verif.Model.CodegenStmt
import Verif.Model.Collection
import Verif.Model.CompilerCmd
import Verif.Model.Complete
import Verif.Model.ConstField
import Verif.Model.Construct
import Verif.Model.Constructors
import Verif.Model.Converters
import Verif.Model.Crash
import Verif.Model.CurviField
import Verif.Model.CurviS
import Verif.Model.Curvilinear
import Verif.Model.DeferRun
import Verif.Model.Density
import Verif.Model.DepthFields
import Verif.Model.Dispatch
import Verif.Model.ErrorReport
import Verif.Model.Export
import Verif.Model.ExportRun
import Verif.Model.FieldLists
import Verif.Model.FloatAdvect
import Verif.Model.FloatSample
import Verif.Model.FloatTime
import Verif.Model.FromField
import Verif.Model.FromNetcdf
import Verif.Model.GetExamples
import Verif.Model.GridRun
import Verif.Model.GridSet
import Verif.Model.Halo
import Verif.Model.HaloSet
import Verif.Model.Indent
import Verif.Model.Interp
import Verif.Model.JitData
import Verif.Model.JitExec
import Verif.Model.JitLoop
import Verif.Model.KernelLoop
import Verif.Model.KernelMerge
import Verif.Model.Layout
import Verif.Model.Libs
import Verif.Model.Load
import Verif.Model.Loggers
import Verif.Model.Memory
import Verif.Model.Metadata
import Verif.Model.MixedChunks
import Verif.Model.Movie
import Verif.Model.Names
import Verif.Model.Namespace
import Verif.Model.NestRun
import Verif.Model.Npy
import Verif.Model.OutVars
import Verif.Model.Output
import Verif.Model.PeriodRun
import Verif.Model.Plot
import Verif.Model.Precision
import Verif.Model.RandomRun
import Verif.Model.Recovery
import Verif.Model.ReleaseDates
import Verif.Model.ReleaseRun
import Verif.Model.RepeatRelease
import Verif.Model.Restart
import Verif.Model.Rng
import Verif.Model.RngLib
import Verif.Model.SLevels
import Verif.Model.Scaling
import Verif.Model.Schedule
import Verif.Model.Scope
import Verif.Model.Search
import Verif.Model.Seawater
import Verif.Model.Shapes
import Verif.Model.SharedData
import Verif.Model.SharedFields
import Verif.Model.SphereRun
import Verif.Model.SumRun
import Verif.Model.TimeChunk
import Verif.Model.TimeInterp
import Verif.Model.Timer
import Verif.Model.WholeRun
import Verif.Model.XArray
import Verif.Model.ZonalCheck
import Verif.Proofs.Access
import Verif.Proofs.AdaptiveRun
import Verif.Proofs.AdaptiveRun2
import Verif.Proofs.AdaptiveRun3
import Verif.Proofs.Advance
import Verif.Proofs.Advection
import Verif.Proofs.Analytical
import Verif.Proofs.CGrid
import Verif.Proofs.CGrid3D
import Verif.Proofs.CGridRun
import Verif.Proofs.CGridSteps
import Verif.Proofs.ChunkSpec
import Verif.Proofs.Chunks
import Verif.Proofs.ChunksCell
import Verif.Proofs.ChunksExec
import Verif.Proofs.ChunksLoad
import Verif.Proofs.CodegenEval
import Verif.Proofs.CodegenHoist
import Verif.Proofs.CodegenParse
import Verif.Proofs.CodegenRun
import Verif.Proofs.CodegenStmt
import Verif.Proofs.Collection
import Verif.Proofs.Collection2
import Verif.Proofs.Collection3
import Verif.Proofs.CompilerCmd
import Verif.Proofs.Construct
import Verif.Proofs.Constructors
import Verif.Proofs.CurviField
import Verif.Proofs.CurviS
import Verif.Proofs.Curvilinear
import Verif.Proofs.DeferRun
import Verif.Proofs.DeferRun2
import Verif.Proofs.DeferRun3
import Verif.Proofs.DeferRun4
import Verif.Proofs.DeferRun5
import Verif.Proofs.DeferRun6
import Verif.Proofs.DepthFields
import Verif.Proofs.Dispatch
import Verif.Proofs.DriftRun
import Verif.Proofs.ErrorReport
import Verif.Proofs.ExportRun
import Verif.Proofs.FloatAdvect
import Verif.Proofs.FloatSample
import Verif.Proofs.FloatTime
import Verif.Proofs.FromField
import Verif.Proofs.FromNetcdf
import Verif.Proofs.GetExamples
import Verif.Proofs.GridRun
import Verif.Proofs.GridRun2
import Verif.Proofs.GridRun3
import Verif.Proofs.HaloSet
import Verif.Proofs.Interp
import Verif.Proofs.JitClock
import Verif.Proofs.JitData
import Verif.Proofs.JitExec
import Verif.Proofs.JitExec2
import Verif.Proofs.JitLoop
import Verif.Proofs.KernelLoop
import Verif.Proofs.KernelLoop2
import Verif.Proofs.KernelLoop3
import Verif.Proofs.Libs
import Verif.Proofs.Load
import Verif.Proofs.Load2
import Verif.Proofs.Load3
import Verif.Proofs.Load4
import Verif.Proofs.Load5
import Verif.Proofs.Load6
import Verif.Proofs.Load7
import Verif.Proofs.Loggers
import Verif.Proofs.Memory
import Verif.Proofs.Metadata
import Verif.Proofs.MixedChunks
import Verif.Proofs.Movie
import Verif.Proofs.Namespace
import Verif.Proofs.NestRun
import Verif.Proofs.NestRun2
import Verif.Proofs.OutVars
import Verif.Proofs.Output
import Verif.Proofs.OutputExport
import Verif.Proofs.PathRun
import Verif.Proofs.PathRun2
import Verif.Proofs.PeriodRun
import Verif.Proofs.Plot
import Verif.Proofs.RandomRun
import Verif.Proofs.RandomRun2
import Verif.Proofs.RandomRun3
import Verif.Proofs.RandomRun4
import Verif.Proofs.Recovery
import Verif.Proofs.ReleaseDates
import Verif.Proofs.ReleaseGrid
import Verif.Proofs.ReleaseRun
import Verif.Proofs.ReleaseRun2
import Verif.Proofs.ReleaseRun3
import Verif.Proofs.RepairRun
import Verif.Proofs.Restart
import Verif.Proofs.Rng
import Verif.Proofs.RngLib
import Verif.Proofs.SLevels
import Verif.Proofs.Schedule
import Verif.Proofs.Schedule2
import Verif.Proofs.Search
import Verif.Proofs.SearchLon
import Verif.Proofs.SearchSphere
import Verif.Proofs.SearchSphere2
import Verif.Proofs.SharedFields
import Verif.Proofs.SphereRun
import Verif.Proofs.SphereRun2
import Verif.Proofs.SphereRun3
import Verif.Proofs.SphereRun4
import Verif.Proofs.SphereRun5
import Verif.Proofs.SphereRun6
import Verif.Proofs.SumRun
import Verif.Proofs.TimeChunk
import Verif.Proofs.TimeChunk2
import Verif.Proofs.TimeInterp
import Verif.Proofs.Timer
import Verif.Proofs.TurnRun
import Verif.Proofs.UnitRun
import Verif.Proofs.WholeRun
import Verif.Proofs.WholeRun2
import Verif.Proofs.WholeRun3
import Verif.Proofs.WholeRun4
import Verif.Proofs.WriteRead
import Verif.Proofs.XArray
import Verif.Proofs.ZonalCheck
import Verif.Props.Access
import Verif.Props.AdaptiveRun
import Verif.Props.Advance
import Verif.Props.Advection
import Verif.Props.Analytical
import Verif.Props.AutoChunks
import Verif.Props.BGrid
import Verif.Props.CGrid
import Verif.Props.CGrid3D
import Verif.Props.CGridRun
import Verif.Props.CGridSteps
import Verif.Props.CellAreas
import Verif.Props.ChunkSpec
import Verif.Props.Chunks
import Verif.Props.Codegen
import Verif.Props.CodegenStmt
import Verif.Props.Collection
import Verif.Props.CompilerCmd
import Verif.Props.Complete
import Verif.Props.ConstField
import Verif.Props.Construct
import Verif.Props.Constructors
import Verif.Props.Converters
import Verif.Props.Crash
import Verif.Props.CurviField
import Verif.Props.CurviS
import Verif.Props.Curvilinear
import Verif.Props.DeferRun
import Verif.Props.Density
import Verif.Props.DepthFields
import Verif.Props.Dispatch
import Verif.Props.DriftRun
import Verif.Props.ErrorReport
import Verif.Props.ExportRun
import Verif.Props.FieldLists
import Verif.Props.FloatAdvect
import Verif.Props.FloatSample
import Verif.Props.FloatTime
import Verif.Props.FromField
import Verif.Props.FromNetcdf
import Verif.Props.GetExamples
import Verif.Props.GridRun
import Verif.Props.GridSet
import Verif.Props.Halo
import Verif.Props.HaloSet
import Verif.Props.Indent
import Verif.Props.Interp
import Verif.Props.InterpSphere
import Verif.Props.InvDist
import Verif.Props.JitClock
import Verif.Props.JitData
import Verif.Props.JitLoop
import Verif.Props.KernelLoop
import Verif.Props.KernelMerge
import Verif.Props.Layout
import Verif.Props.Libs
import Verif.Props.Load
import Verif.Props.Loggers
import Verif.Props.Memory
import Verif.Props.Metadata
import Verif.Props.MixedChunks
import Verif.Props.Movie
import Verif.Props.Mpi
import Verif.Props.Names
import Verif.Props.Namespace
import Verif.Props.NestRun
import Verif.Props.NextInput
import Verif.Props.Npy
import Verif.Props.Origins
import Verif.Props.OutVars
import Verif.Props.Output
import Verif.Props.OutputExport
import Verif.Props.PathRun
import Verif.Props.PeriodRun
import Verif.Props.Plot
import Verif.Props.Precision
import Verif.Props.RandomRun
import Verif.Props.Records
import Verif.Props.Recovery
import Verif.Props.ReleaseDates
import Verif.Props.ReleaseGrid
import Verif.Props.ReleaseRun
import Verif.Props.RepairRun
import Verif.Props.RepeatRelease
import Verif.Props.Restart
import Verif.Props.Rng
import Verif.Props.RngLib
import Verif.Props.SLevels
import Verif.Props.Scaling
import Verif.Props.Schedule
import Verif.Props.Scope
import Verif.Props.Search
import Verif.Props.SearchLon
import Verif.Props.SearchSphere
import Verif.Props.Seawater
import Verif.Props.Shapes
import Verif.Props.SharedData
import Verif.Props.SharedFields
import Verif.Props.SphereRun
import Verif.Props.SumRun
import Verif.Props.TimeChunk
import Verif.Props.TimeInterp
import Verif.Props.Timer
import Verif.Props.TurnRun
import Verif.Props.UnitRun
import Verif.Props.WholeRun
import Verif.Props.WriteRead
import Verif.Props.XArray
import Verif.Props.ZonalCheck
import Verif.Spec.Access
import Verif.Spec.AdaptiveRun
import Verif.Spec.Advance
import Verif.Spec.Advection
import Verif.Spec.Analytical
import Verif.Spec.AutoChunks
import Verif.Spec.CGrid
import Verif.Spec.CGrid3D
import Verif.Spec.CGridRun
import Verif.Spec.CGridSteps
import Verif.Spec.ChunkSpec
import Verif.Spec.Chunks
import Verif.Spec.Codegen
import Verif.Spec.CodegenStmt
import Verif.Spec.Collection
import Verif.Spec.CompilerCmd
import Verif.Spec.Complete
import Verif.Spec.Construct
import Verif.Spec.Constructors
import Verif.Spec.CurviField
import Verif.Spec.CurviS
import Verif.Spec.Curvilinear
import Verif.Spec.DeferRun
import Verif.Spec.DepthFields
import Verif.Spec.Dispatch
import Verif.Spec.DriftRun
import Verif.Spec.ErrorReport
import Verif.Spec.ExportRun
import Verif.Spec.FloatAdvect
import Verif.Spec.FloatSample
import Verif.Spec.FloatTime
import Verif.Spec.FromField
import Verif.Spec.FromNetcdf
import Verif.Spec.GetExamples
import Verif.Spec.GridRun
import Verif.Spec.HaloSet
import Verif.Spec.Indent
import Verif.Spec.Interp
import Verif.Spec.JitData
import Verif.Spec.JitExec
import Verif.Spec.JitLoop
import Verif.Spec.KernelLoop
import Verif.Spec.Layout
import Verif.Spec.Libs
import Verif.Spec.Load
import Verif.Spec.Loggers
import Verif.Spec.Memory
import Verif.Spec.Metadata
import Verif.Spec.MixedChunks
import Verif.Spec.Namespace
import Verif.Spec.NestRun
import Verif.Spec.OutVars
import Verif.Spec.Output
import Verif.Spec.PathRun
import Verif.Spec.PeriodRun
import Verif.Spec.Plot
import Verif.Spec.RandomRun
import Verif.Spec.ReleaseDates
import Verif.Spec.ReleaseGrid
import Verif.Spec.ReleaseRun
import Verif.Spec.RepairRun
import Verif.Spec.Restart
import Verif.Spec.Rng
import Verif.Spec.SLevels
import Verif.Spec.Schedule
import Verif.Spec.Search
import Verif.Spec.Seawater
import Verif.Spec.Shapes
import Verif.Spec.SharedFields
import Verif.Spec.Sphere
import Verif.Spec.SphereRun
import Verif.Spec.SumRun
import Verif.Spec.TimeChunk
import Verif.Spec.Timer
import Verif.Spec.TurnRun
import Verif.Spec.UnitRun
import Verif.Spec.WholeRun
import Verif.Spec.WriteRead
import Verif.Spec.XArray
import Verif.Spec.ZonalCheck
