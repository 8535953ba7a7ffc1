import Verif.Lemmas.Cover
import Verif.Lemmas.CoverMasks
import Verif.Lemmas.Diagrams
import Verif.Lemmas.DiagramsCheck
import Verif.Lemmas.Distances
import Verif.Lemmas.Entropy
import Verif.Lemmas.Homology
import Verif.Lemmas.List
import Verif.Lemmas.Matching
import Verif.Lemmas.Nerve
import Verif.Lemmas.NerveEdges
import Verif.Lemmas.PerDim
import Verif.Lemmas.Raster
import Verif.Lemmas.RiemannSums
import Verif.Lemmas.TimeSeries
import Verif.Lemmas.Vectorization
import Verif.Model.Adapters
import Verif.Model.ClusterObject
import Verif.Model.Cover
import Verif.Model.CoverObject
import Verif.Model.CurveFeatures
import Verif.Model.CurveFunctions
import Verif.Model.DiagramMetrics
import Verif.Model.Diagrams
import Verif.Model.Distances
import Verif.Model.Docs
import Verif.Model.FeatureObject
import Verif.Model.Features
import Verif.Model.Graphs
import Verif.Model.Gudhi
import Verif.Model.Homology
import Verif.Model.HomologyObject
import Verif.Model.ImageObject
import Verif.Model.ImagePlots
import Verif.Model.Images
import Verif.Model.InputChecks
import Verif.Model.Intervals
import Verif.Model.IntervalsMore
import Verif.Model.KnnGeodesic
import Verif.Model.LocalHomology
import Verif.Model.LocalObject
import Verif.Model.MapperCluster
import Verif.Model.MapperFilters
import Verif.Model.MapperInteractive
import Verif.Model.MapperParams
import Verif.Model.MapperPipeline
import Verif.Model.MapperSession
import Verif.Model.Neighbors
import Verif.Model.Nerve
import Verif.Model.NodeColors
import Verif.Model.Parallel
import Verif.Model.PerDim
import Verif.Model.Persistence
import Verif.Model.Pipeline
import Verif.Model.PipelineCache
import Verif.Model.PipelineNesting
import Verif.Model.PipelineScore
import Verif.Model.PipelineSeries
import Verif.Model.Plotting
import Verif.Model.PointClouds
import Verif.Model.Raster
import Verif.Model.Scaler
import Verif.Model.ScalerObject
import Verif.Model.SeriesFeatures
import Verif.Model.SeriesObject
import Verif.Model.Silhouette
import Verif.Model.Stateless
import Verif.Model.TakensSearch
import Verif.Model.TimeSeries
import Verif.Model.TransitionGeodesic
import Verif.Model.Validation
import Verif.Model.Vectorization
import Verif.Model.Vectorizers
import Verif.Model.Visualization
import Verif.Props.Adapters
import Verif.Props.Agreement
import Verif.Props.Amplitudes
import Verif.Props.BettiDerivatives
import Verif.Props.ClusterObject
import Verif.Props.Correlation
import Verif.Props.Cover
import Verif.Props.CoverObject
import Verif.Props.CubicalResponse
import Verif.Props.CurveDerivatives
import Verif.Props.CurveFeatures
import Verif.Props.CurveFunctions
import Verif.Props.Curves
import Verif.Props.DiagramMetrics
import Verif.Props.DiagramSequence
import Verif.Props.Diagrams
import Verif.Props.Distances
import Verif.Props.Docs
import Verif.Props.Eccentricity
import Verif.Props.EntropyExtremes
import Verif.Props.FeatureObject
import Verif.Props.Features
import Verif.Props.FilteredFeatures
import Verif.Props.GraphSymmetry
import Verif.Props.Graphs
import Verif.Props.Gudhi
import Verif.Props.HomologyObject
import Verif.Props.ImageObject
import Verif.Props.ImageObjectMesh
import Verif.Props.ImagePlots
import Verif.Props.ImageSets
import Verif.Props.ImageSymmetry
import Verif.Props.ImageSymmetryMesh
import Verif.Props.ImagesCompose
import Verif.Props.ImagesDensity
import Verif.Props.ImagesDilation
import Verif.Props.ImagesMesh
import Verif.Props.ImagesPre
import Verif.Props.InputChecks
import Verif.Props.Intervals
import Verif.Props.IntervalsMore
import Verif.Props.Joined
import Verif.Props.KnnGeodesic
import Verif.Props.LandscapeFeatures
import Verif.Props.Limits
import Verif.Props.LocalHomology
import Verif.Props.LocalObject
import Verif.Props.MapperCluster
import Verif.Props.MapperEndToEnd
import Verif.Props.MapperFilters
import Verif.Props.MapperGaps
import Verif.Props.MapperInteractive
import Verif.Props.MapperInvariance
import Verif.Props.MapperParams
import Verif.Props.MapperResponse
import Verif.Props.MapperSession
import Verif.Props.MapperSessionLogs
import Verif.Props.MapperShape
import Verif.Props.Matching
import Verif.Props.MutualInformation
import Verif.Props.Neighbors
import Verif.Props.Nerve
import Verif.Props.NodeColors
import Verif.Props.Parallel
import Verif.Props.Persistence
import Verif.Props.Pipeline
import Verif.Props.PipelineCache
import Verif.Props.PipelineNesting
import Verif.Props.PipelineNestingFitted
import Verif.Props.PipelineScore
import Verif.Props.PipelineSeries
import Verif.Props.Plotting
import Verif.Props.PointClouds
import Verif.Props.PolynomialContent
import Verif.Props.Polynomials
import Verif.Props.Raster
import Verif.Props.Rates
import Verif.Props.Samplings
import Verif.Props.ScalerObject
import Verif.Props.SeriesCompose
import Verif.Props.SeriesFeatures
import Verif.Props.SeriesObject
import Verif.Props.Silhouette
import Verif.Props.SilhouettePowers
import Verif.Props.Stability
import Verif.Props.Stateless
import Verif.Props.TakensLaws
import Verif.Props.TakensSearch
import Verif.Props.TimeSeriesMore
import Verif.Props.TimeSeriesWindows
import Verif.Props.TransitionGeodesic
import Verif.Props.Units
import Verif.Props.UnitsFeatures
import Verif.Props.UnitsMetrics
import Verif.Props.Validation
import Verif.Props.Vectorizers
import Verif.Props.Visualization
import Verif.Py.Basic
import Verif.Spec.Adapters
import Verif.Spec.BettiDerivatives
import Verif.Spec.ClusterObject
import Verif.Spec.Cover
import Verif.Spec.CoverObject
import Verif.Spec.CurveDerivatives
import Verif.Spec.CurveFeatures
import Verif.Spec.CurveFunctions
import Verif.Spec.DiagramMetrics
import Verif.Spec.Diagrams
import Verif.Spec.Distances
import Verif.Spec.Docs
import Verif.Spec.Eccentricity
import Verif.Spec.Entropy
import Verif.Spec.FeatureObject
import Verif.Spec.Graphs
import Verif.Spec.Gudhi
import Verif.Spec.Homology
import Verif.Spec.HomologyObject
import Verif.Spec.ImageObject
import Verif.Spec.ImagePlots
import Verif.Spec.ImageSymmetry
import Verif.Spec.ImageTypes
import Verif.Spec.Images
import Verif.Spec.InputChecks
import Verif.Spec.Intervals
import Verif.Spec.Joined
import Verif.Spec.KnnGeodesic
import Verif.Spec.Limits
import Verif.Spec.LocalObject
import Verif.Spec.MapperCluster
import Verif.Spec.MapperInteractive
import Verif.Spec.MapperInvariance
import Verif.Spec.MapperParams
import Verif.Spec.MapperSession
import Verif.Spec.MapperShape
import Verif.Spec.Matching
import Verif.Spec.Neighbors
import Verif.Spec.Nerve
import Verif.Spec.NodeColors
import Verif.Spec.Persistence
import Verif.Spec.Pipeline
import Verif.Spec.PipelineCache
import Verif.Spec.PipelineNesting
import Verif.Spec.Plotting
import Verif.Spec.PointClouds
import Verif.Spec.Raster
import Verif.Spec.ScalerObject
import Verif.Spec.SeriesObject
import Verif.Spec.SilhouettePowers
import Verif.Spec.Stateless
import Verif.Spec.TakensSearch
import Verif.Spec.TimeSeries
import Verif.Spec.TransitionGeodesic
import Verif.Spec.Units
import Verif.Spec.Validation
import Verif.Spec.Vectorization
import Verif.Spec.Vectorizers
import Verif.Spec.Visualization
