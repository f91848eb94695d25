import Verif.Index.Properties
import Verif.Visitor.Properties
import Verif.Decomposition.Properties
import Verif.Localities.Properties
import Verif.FromBuffer.Properties
import Verif.LocalOp.Properties
import Verif.Aggregate.Properties
import Verif.Zonal.Properties
import Verif.Zonal.Reclassify
import Verif.UniqueId.Properties
import Verif.CellIndex.Properties
import Verif.Resample.Properties
import Verif.Focal.Properties
import Verif.FocalStats.Properties
import Verif.Routing.D8
import Verif.InflowCount.Properties
import Verif.Router.Model
import Verif.Router.Ghost
import Verif.Router.Cells
import Verif.Router.Inv
import Verif.Router.Accumulate
import Verif.Router.Stream
import Verif.Router.Receive
import Verif.Router.System
import Verif.Router.Initialise
import Verif.Router.Properties
import Verif.Accu.Model
import Verif.Accu.Spec
import Verif.Accu.Upstream
import Verif.Accu.Routed
import Verif.Accu.Properties
import Verif.Accu.Split
import Verif.Accu.Operations
import Verif.Memory.ArrayProperties
import Verif.Memory.SharedProperties
import Verif.FirstN.Properties
import Verif.DecreasingOrder.Properties
import Verif.Simulate.Properties
import Verif.Serializer.Properties
import Verif.LueIO.Properties
import Verif.Streams.Properties
import Verif.Clump.Properties
import Verif.Clump.Union
import Verif.Clump.Border
import Verif.Clump.MergeProperties
import Verif.LueCalls.Properties
import Verif.ValueOps.Properties
import Verif.DataModel.Properties
import Verif.Chunk.Properties
import Verif.KinematicWave.Properties
import Verif.Terrain.Properties
import Verif.Create.Properties
import Verif.GdalIO.Properties
import Verif.Position.Properties
import Verif.PyArray.Properties
import Verif.Walk.Properties
import Verif.Integrate.Properties
import Verif.Allocate.Properties
import Verif.Identifier.Properties
import Verif.Validate.Properties
import Verif.Numpy.Properties
import Verif.PyOps.Properties
import Verif.RasterView.Properties
import Verif.RasterView.Foreign
import Verif.GdalBlocks.Properties
import Verif.Translate.Properties
import Verif.PyIO.Properties
import Verif.Pcraster.Examples
import Verif.Calculate.Examples
import Verif.PcrFramework.Properties
import Verif.TimeInput.Properties
import Verif.Config.Properties
import Verif.FloatOps.Properties
import Verif.JsonImport.Properties
import Verif.Runtime.Properties
import Verif.Environment.Properties
import Verif.FieldApi.Properties
import Verif.FieldApi.Scalar
import Verif.Scalability.Results
import Verif.Scalability.Shapes
import Verif.Random.Uses
import Verif.KernelPy.Expand
import Verif.Shapefile.Export
import Verif.AccuInfo.Classes
import Verif.PartitionIO.History
import Verif.Structure.Examples
import Verif.Channels.Examples
import Verif.Dot.Examples
import Verif.Wire.Examples
import Verif.Program.Model
import Verif.Program.Spec
import Verif.Program.Proofs
import Verif.Program.Theorems
import Verif.Program.Instances
import Verif.Program.Examples
import Verif.Dataflow.Model
import Verif.Dataflow.Proofs
import Verif.Dataflow.Theorems
import Verif.Dataflow.Operations
import Verif.Dataflow.Focal
import Verif.Dataflow.Examples
import Verif.Async.Stages
import Verif.Async.Flow
import Verif.Async.Model
import Verif.Async.Proofs
import Verif.Async.Theorems
import Verif.Async.Examples
import Verif.Rounding.Model
import Verif.Rounding.Spec
import Verif.Rounding.Bound
import Verif.Rounding.Theorems
import Verif.Rounding.Examples
import Verif.MassBalance.Model
import Verif.MassBalance.Spec
import Verif.MassBalance.Step
import Verif.MassBalance.Theorems
import Verif.MassBalance.Examples
import Verif.FocalRounding.Model
import Verif.FocalRounding.Spec
import Verif.FocalRounding.Folds
import Verif.FocalRounding.Theorems
import Verif.FocalRounding.Results
import Verif.FocalRounding.Examples
import Verif.Life.Model
import Verif.Life.Spec
import Verif.Life.Properties
import Verif.Life.Examples
import Verif.NoData.Examples
import Verif.Cutout.Examples
import Verif.Cutout.CatchmentExamples
import Verif.Cutout.ZonesExamples
