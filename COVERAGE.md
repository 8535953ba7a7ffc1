# Model definitions by source file

Generated by `tools/coverage.py` from the citations in the model. Helpers (data types and numpy, scipy or scikit-learn primitives) are omitted.

## gtda/_version.py

Not modelled (see DESIGN.md).

## gtda/base.py

* 6-88: `Pipeline.mixin`
* 6-88: `Pipeline.plainMixin`
* 94-119: `ImagePlots.fitTransformPlot`
* 121-144: `Plotting.transformPlot`

## gtda/curves/_functions.py

* 9-19: `CurveFeatures.available`
* 9-19: `CurveFeatures.paramRefs`
* 21-31: `CurveFunctions.recipe`
* 34-52: `CurveFeatures.featurize`
* 38-44: `CurveFeatures.featureTasks`
* 42: `CurveFeatures.callChannel`

## gtda/curves/features.py

* 81-85: `CurveFeatures.checkEntry`
* 94-113: `CurveFeatures.validateFunctionType`
* 94-124: `CurveFeatures.validateFunction`
* 99-113: `CurveFeatures.validateEntries`
* 126-208: `CurveFeatures.featuresFit`
* 183-191: `CurveFeatures.paramsList`
* 195-203: `CurveFeatures.channelParams`
* 210-243: `CurveFeatures.featuresFitTransform`

## gtda/curves/preprocessing.py

* 51-87: `CurveFeatures.derivativeFit`
* 89-119: `CurveFeatures.derivativeTransform`
* 121-199: `Plotting.derivativePlot`

## gtda/diagrams/_features.py

* 11-14: `Features.rootR`
* 17-27: `Features.rootS`
* 30-37: `Features.rootT`
* 40-42: `Features.PolyType.root`

## gtda/diagrams/_metrics.py

* 18-51: `DiagramMetrics.Key`
* 18-51: `DiagramMetrics.MParams.inRange`
* 18-51: `DiagramMetrics.Metric`
* 18-60: `DiagramMetrics.allowed`
* 63-175, 233-293, 351-405: `DiagramMetrics.vecs`
* 63-68: `Vectorization.bettiCurves`
* 64-67: `Vectorization.aliveCount`
* 71-82: `Vectorization.landscapes`
* 73-75: `Vectorization.fiber`
* 85-115: `Raster.heatOne`
* 85-115: `Vectorizers.heatItem`
* 94-96, 104-109: `Raster.heatRaster`
* 95-96, 138-139: `Raster.clipTo`
* 118-156: `Raster.imageOne`
* 118-156: `Vectorizers.imageItem`
* 130-151: `Raster.imageRaster`
* 159-175: `Silhouette.silhouetteOne`
* 164-167: `Silhouette.silhouetteWeights`
* 168-174: `Silhouette.silhouetteValues`
* 178-189: `Distances.matchingDistances`
* 178-189, 307-338: `Distances.matchingPairwise`
* 178-304: `DiagramMetrics.metricFn`
* 192-205, 233-277, 307-338: `Distances.vecPairwise`
* 192-205, 233-293: `Distances.batchDistances`
* 192-277: `Distances.VecMetric.factor`
* 195, 212, 237, 260, 283: `DiagramMetrics.factor`
* 195, 212, 237, 262, 280: `Distances.stepFactor`
* 197-203, 353: `Distances.VecMetric.vecs`
* 203-204: `Distances.minkowski`
* 208-230: `DiagramMetrics.landscapeMetric`
* 208-230: `Distances.landscapeDistances`
* 208-230, 307-338: `Distances.landscapePairwise`
* 280-292: `Distances.liftNan₂`
* 280-292, 307-338: `Distances.silhouettePairwise`
* 280-292, 398-405: `Distances.silhouetteVecs`
* 307-338: `Distances.parallelPairwise`
* 310, 420: `DiagramMetrics.recipe`
* 312-314, 325-326: `DiagramMetrics.axesFor`
* 322-328: `Distances.pairwiseTask`
* 341-343: `Distances.bottleneckAmplitudes`
* 341-416: `DiagramMetrics.amplitudeFn`
* 346-348: `Distances.wassersteinAmplitudes`
* 351-357, 370-395, 419-444: `Distances.vecAmplitudes`
* 351-405: `Distances.batchAmplitudes`
* 359-367, 419-444: `Distances.landscapeAmplitudes`
* 363-364: `Distances.landscapeVecs`
* 398-405: `Distances.liftNan`
* 398-405, 419-444: `Distances.silhouetteAmplitudes`
* 419-444: `Distances.parallelAmplitude`
* 430-442: `Parallel.chunkedM`
* 430-442: `PerDim.perDim`

## gtda/diagrams/_utils.py

* 7-11: `Vectorizers.observedDims`
* 14-52: `Diagrams.subdiagrams`
* 21-39: `Diagrams.subdiagramsSingle`
* 55-60: `Raster.sampleImage`
* 60: `Raster.setPixel`
* 63-77: `Diagrams.multirange`
* 80-122: `Diagrams.filterDiagrams`
* 86-89: `Diagrams.unfilteredPart`
* 94-118: `Diagrams.filterDim`
* 96-99, 109: `Diagrams.selected`
* 125-167: `Vectorization.binSampling`
* 132-135: `Vectorization.columns`
* 136-145: `Vectorization.binRange`
* 163: `DiagramMetrics.Metric.isCurve`
* 170-186: `Plotting.dimsMapping`

## gtda/diagrams/distance.py

* 18: `DiagramMetrics.Cls`
* 130-135, 172-173: `DiagramMetrics.validate`
* 137-142: `DiagramMetrics.Params`
* 137-142: `DiagramMetrics.new`
* 137-201: `DiagramMetrics.Est`
* 144-201: `DiagramMetrics.Op`
* 144-201: `DiagramMetrics.run`
* 144-201: `DiagramMetrics.setParams`
* 171-201: `DiagramMetrics.fit`
* 179-180: `DiagramMetrics.validateMetric`
* 192-198: `DiagramMetrics.storeWeight`
* 232-242: `DiagramMetrics.transformDistance`
* 239-240: `Distances.aggregate`
* 239-240: `Distances.aggregateNan`

## gtda/diagrams/features.py

* 22-186: `FeatureObject.Op`
* 22-186: `FeatureObject.run`
* 22-186: `FeatureObject.step`
* 90-93, 107-144, 146-186: `FeatureObject.entropyCls`
* 90-93, 140: `FeatureObject.Obj`
* 95-105: `Features.persistenceEntropyOne`
* 99-101: `Features.normalizeEntropy`
* 103: `Features.nanToNumE`
* 107-186: `FeatureObject.Cls`
* 133-144: `FeatureObject.fit`
* 171-186: `FeatureObject.transform`
* 174-186: `Features.entropyTransform`
* 190: `DiagramMetrics.Cls`
* 289-294, 331-332: `DiagramMetrics.validate`
* 296-301: `DiagramMetrics.Params`
* 296-301: `DiagramMetrics.new`
* 296-359: `DiagramMetrics.Est`
* 330-359: `DiagramMetrics.fit`
* 338-339: `DiagramMetrics.validateMetric`
* 351-357: `DiagramMetrics.storeWeight`
* 387-397: `DiagramMetrics.transformAmplitude`
* 394-395: `Distances.aggregateAmplitude`
* 434-435, 441-476, 478-514: `FeatureObject.pointsCls`
* 437-439: `Features.numberPoints`
* 507-514: `Features.numberPointsTransform`
* 508: `Features.numberPointsTask`
* 518-723: `FeatureObject.PolyOp`
* 518-723: `FeatureObject.polyStep`
* 594-601: `FeatureObject.polyValidate`
* 603-606: `FeatureObject.PolyParams`
* 603-606: `FeatureObject.newPoly`
* 608-667: `FeatureObject.polyFit`
* 641-662: `Features.fitCoefficients`
* 652: `FeatureObject.isListed`
* 659: `FeatureObject.Poly`
* 669-682: `Features.complexPolynomial`
* 711-723: `FeatureObject.polyTransform`
* 714-723: `Features.polynomialTransform`
* 715-717: `FeatureObject.polyTask`
* 715-717: `Features.polynomialTask`
* 717: `FeatureObject.coefficientAt`

## gtda/diagrams/preprocessing.py

* 37-62, 64-89: `Stateless.forgetDimensionCls`
* 84-89: `Diagrams.forgetDimension`
* 92-120: `Plotting.forgetPlot`
* 195-199, 233-234: `ScalerObject.svalidate`
* 201-206: `ScalerObject.SParams`
* 201-206: `ScalerObject.snew`
* 201-267: `ScalerObject.SEst`
* 208-267: `ScalerObject.SOp`
* 208-267: `ScalerObject.srun`
* 208-267: `ScalerObject.ssetParams`
* 208-296: `Scaler.scalerFitTransform`
* 232-267: `ScalerObject.sfit`
* 262-266: `Scaler.scalerFit`
* 265: `ScalerObject.callFunction`
* 292-296: `Diagrams.scalerTransform`
* 292-296: `ScalerObject.stransform`
* 295: `Scaler.scalerDivide`
* 313-317: `Diagrams.scalerInverse`
* 313-317: `ScalerObject.sinverse`
* 349-357: `Plotting.diagramPlot`
* 399-409, 411-450, 452-481: `FeatureObject.filteringCls`
* 437-450: `Diagrams.filteringFit`
* 483-521: `ImagePlots.filteringPlot`

## gtda/diagrams/representations.py

* 27, 253, 511, 730, 986: `Vectorizers.Kind`
* 76-78, 307-310, 577-580, 813-817, 1050-1053: `Vectorizers.validate`
* 80-82, 312-315, 582-585: `Vectorizers.Params`
* 80-82, 312-315, 582-585, 819-824, 1055-1058: `Vectorizers.new`
* 84-130: `Vectorizers.Op`
* 84-130: `Vectorizers.run`
* 84-130: `Vectorizers.setParams`
* 84-130, 317-363, 587-633, 826-880, 1060-1106: `Vectorizers.fit`
* 118-120: `Vectorizers.observedDims`
* 119-128, 352-361, 622-631, 858-878, 1095-1106: `Vectorizers.Est`
* 158-169, 392-404, 620-630, 932-942, 1241-1250: `PerDim.perDim`
* 158-170, 394-409, 663-674, 910-927, 1134-1146: `Vectorizers.transform`
* 161-170: `Vectorization.bettiTransform`
* 172-249, 1148-1225: `Plotting.curvesPlot`
* 397-409: `Vectorization.landscapeTransform`
* 411-506: `Plotting.landscapePlot`
* 666-674: `Raster.heatTransform`
* 676-726: `Plotting.heatPlot`
* 858-861: `Vectorizers.effectiveWeight`
* 913-927: `Raster.imageTransform`
* 929-982: `Plotting.imagePlot`
* 1137-1146: `Silhouette.silhouetteTransform`

## gtda/externals/python/cech_complex_interface.py

* 24-34: `Gudhi.createTree`

## gtda/externals/python/cubical_complex_interface.py

* 6-8: `Gudhi.Cohomology`
* 11-157: `Gudhi.Kind`
* 19-48: `Gudhi.cubicalNew`
* 32-33: `Gudhi.Obj`
* 70-80: `Gudhi.Obj.measure`
* 82-106: `Gudhi.Obj.persistence`
* 108-119: `Gudhi.Obj.betti`
* 121-139: `Gudhi.Obj.persistentBetti`
* 141-157: `Gudhi.Obj.intervals`
* 157: `Gudhi.npOfPairs`

## gtda/externals/python/periodic_cubical_complex_interface.py

* 10-156: `Gudhi.Kind`
* 15-48: `Gudhi.cubicalNew`
* 82-106: `Gudhi.Obj.persistence`
* 108-119: `Gudhi.Obj.betti`
* 121-138: `Gudhi.Obj.persistentBetti`
* 140-156: `Gudhi.Obj.intervals`

## gtda/externals/python/rips_complex_interface.py

* 1-3: `Gudhi.RipsEngine`
* 13-33: `Gudhi.ripsNew`
* 35-45, 90-100: `Gudhi.createTree`
* 61-88: `Gudhi.sparseRipsNew`

## gtda/externals/python/simplex_tree_interface.py

* 5-410: `Gudhi.Kind`
* 18-21, 309-312: `Gudhi.Attr`
* 51-289: `Gudhi.Call`
* 51-318: `Gudhi.Obj.run`
* 51-318: `Gudhi.Obj.step`
* 153-210: `Gudhi.rebuild`
* 291-318: `Gudhi.Obj.persistence`
* 320-334: `Gudhi.Obj.betti`
* 336-357: `Gudhi.Obj.persistentBetti`
* 359-376: `Gudhi.Obj.intervals`
* 394-410: `Gudhi.Obj.write`

## gtda/externals/python/strong_witness_complex_interface.py

* 12-24: `Gudhi.witnessNew`
* 37-53: `Gudhi.witnessTree`

## gtda/externals/python/witness_complex_interface.py

* 12-24: `Gudhi.witnessNew`
* 37-53: `Gudhi.witnessTree`

## gtda/graphs/geodesic_distance.py

* 88-93: `Graphs.GeodesicParams`
* 95-121: `Graphs.prepare`
* 95-121: `KnnGeodesic.asInput`
* 95-121: `KnnGeodesic.knnGeodesic`
* 95-121: `TransitionGeodesic.transitionGeodesic`
* 95-121, 150-183: `Graphs.geodesic`
* 96-109: `Graphs.chooseMethod`
* 98-99: `Graphs.zeroOffDiag`
* 119-121: `Graphs.Engine`
* 123-148, 150-183: `Stateless.geodesicCls`
* 186: `ImagePlots.Kind.colorscale`
* 186, 216-220: `ImagePlots.Kind.hasOrigin`
* 186-220: `ImagePlots.heatmapPlot`
* 218: `ImagePlots.Kind.title`

## gtda/graphs/kneighbors.py

* 84-162: `Stateless.KnnOp`
* 84-162: `Stateless.knnRun`
* 84-162: `Stateless.knnStep`
* 84-91: `Neighbors.Mode`
* 84-91: `Neighbors.Params`
* 84-91: `Stateless.knnNew`
* 93-122: `Neighbors.fit`
* 117, 121: `Stateless.KnnObj`
* 117-122: `Stateless.knnFit`
* 124-162: `Neighbors.transform`
* 144-148: `Neighbors.Graph`
* 150-162: `Stateless.knnTransform`
* 154-158: `Neighbors.kneighborsGraph`
* 154-160: `KnnGeodesic.knnGeodesic`
* 154-160: `Neighbors.Query`
* 154-160: `Neighbors.denseGraph`
* 154-160: `Neighbors.distances`
* 154-160: `Neighbors.neighbors`
* 154-160: `Neighbors.sortQuery`
* 154-160: `Neighbors.weight`
* 154-162: `KnnGeodesic.asInput`
* 160: `Neighbors.iterate`

## gtda/graphs/transition.py

* 16-18: `Stateless.tgFit`
* 109: `Stateless.Func`
* 112-115, 157-165: `Stateless.TgObj`
* 112-197: `Stateless.TgOp`
* 112-197: `Stateless.tgRun`
* 112-197: `Stateless.tgStep`
* 117-129: `Graphs.adjacency`
* 117-129: `TransitionGeodesic.transitionGeodesic`
* 127-129: `TransitionGeodesic.storedMatrix`
* 131-197: `Graphs.transitionFitTransform`
* 153-167: `Stateless.tgFit`
* 191-197: `Stateless.tgTransform`

## gtda/homology/_utils.py

* 7-65: `Homology.postprocess`
* 11-13: `Homology.replaceInfinity`
* 12: `Homology.nanToNum`
* 17-37: `Homology.rawSub`
* 44-48: `Homology.padValue`
* 53-63: `Homology.writeDim`

## gtda/homology/cubical.py

* 19: `HomologyObject.Kind`
* 111-119: `HomologyObject.HParams`
* 121-130: `Gudhi.cubicalCall`
* 121-130: `HomologyObject.rawDiagram`
* 121-130: `Persistence.cubicalDiagram`
* 121-130, 152-154, 168-172: `HomologyObject.Env`
* 122-128: `HomologyObject.Call`
* 122-128: `HomologyObject.callOf`
* 124: `Persistence.flattenF`
* 132-223: `Persistence.cubicalFitTransform`
* 152-154: `HomologyObject.precheck`
* 152-179: `HomologyObject.hfit`
* 156-166: `HomologyObject.prepare`
* 156-166: `Persistence.cubicalPeriodic`
* 156-177: `HomologyObject.HEst`
* 168-172: `Persistence.maxPixel`
* 168-174: `HomologyObject.infinityValue`
* 212: `HomologyObject.isFitted`
* 212-223: `HomologyObject.htransform`
* 219: `HomologyObject.formatOf`
* 256-259: `Plotting.diagramPlot`

## gtda/homology/simplicial.py

* 25-35: `Persistence.ripsWeightRefs`
* 39, 349, 734, 1005, 1255, 1480: `HomologyObject.Kind`
* 151-154: `Validation.homologyDimensionsRef`
* 162-174: `HomologyObject.hnew`
* 162-174, 529-543, 843-853, 1098-1106, 1338-1346, 1597-1609: `HomologyObject.HParams`
* 176-184: `Persistence.ripserDiagram`
* 176-184, 545-558, 855-868, 1108-1130, 1348-1356, 1611-1623: `HomologyObject.rawDiagram`
* 177-182: `HomologyObject.callOf`
* 177-182, 550-556, 856-866, 1126-1128, 1349-1354, 1613-1618: `HomologyObject.Call`
* 186-243: `HomologyObject.HOp`
* 186-243: `HomologyObject.hrun`
* 186-243: `HomologyObject.hset`
* 228-229, 601-602, 899-900, 1156-1157, 1382-1384, 1659-1662: `HomologyObject.precheck`
* 228-233, 176-184: `HomologyObject.Env`
* 228-243, 601-629, 899-912, 1156-1168, 1382-1394, 1659-1673: `HomologyObject.hfit`
* 231-243, 606-627, 1664-1671: `HomologyObject.HEst`
* 235-238: `HomologyObject.infinityValue`
* 235-243: `Persistence.fit`
* 235-290: `Persistence.fitTransform`
* 298, 683, 954, 1205, 1430, 1720: `HomologyObject.isFitted`
* 298-309, 683-694, 954-965, 1205-1215, 1430-1440, 1720-1730: `HomologyObject.htransform`
* 299-300, 684-685, 955-956, 1206, 1431, 1721: `HomologyObject.transformFlag`
* 302-309: `Persistence.transform`
* 306, 691, 962, 1212, 1437, 1727: `HomologyObject.formatOf`
* 342-345, 697-730: `Plotting.diagramPlot`
* 603-615: `HomologyObject.weightStep`
* 603-615: `Persistence.effectiveWeightParams`
* 603-619, 231-233, 901-903: `HomologyObject.prepare`
* 855-868: `Persistence.gudhiDiagram`
* 857-868: `Gudhi.sparseRipsCall`
* 862, 1351: `HomologyObject.maxOf`
* 968-1001, 1218-1251, 1443-1476, 1733-1766: `Plotting.diagramPlot`
* 1108-1124: `PointClouds.weakAlphaEdges`
* 1348-1356: `Gudhi.cechCall`
* 1611-1625: `Persistence.flagserDiagram`
* 1612-1621: `HomologyObject.alignFlagser`

## gtda/images/_utils.py

* 8-18: `Images.dilate`
* 10-16: `Images.dilateLoop`
* 11-12: `Images.newPixels`
* 14: `Images.assignNew`
* 21-23: `Images.erode`

## gtda/images/filtrations.py

* 25-182: `ImageObject.Op`
* 25-182: `ImageObject.run`
* 25-182: `ImageObject.step`
* 80-95, 128-147, 174-182: `ImageObject.heightCls`
* 84-86, 121, 131-144: `ImageObject.Obj`
* 88-95: `Images.calcHeight`
* 97-104: `ImageObject.Batch`
* 97-182: `ImageObject.Cls`
* 120-121: `ImageObject.checkArray`
* 120-147: `ImageObject.fit`
* 120-147: `Images.heightFit`
* 121-124: `Images.checkDims`
* 128-132: `Images.unitDirection`
* 128-145: `ImageObject.HeightAttrs`
* 134,367: `Images.axisOrder`
* 134-138: `Images.heightRanges`
* 134-147: `Images.heightFitDir`
* 174-182: `ImageObject.transform`
* 174-182: `Images.heightTransform`
* 185: `ImagePlots.Kind.colorscale`
* 185-224, 419-458, 613-652, 807-846, 1009-1048, 1251-1290: `ImagePlots.heatmapPlot`
* 222, 456, 650, 844, 1046, 1288: `ImagePlots.Kind.title`
* 306-328, 361-383, 408-416: `ImageObject.radialCls`
* 313-319: `ImageObject.RadialParams`
* 321-328: `Images.calcRadial`
* 322: `ImageObject.broadcastIdx`
* 353-383: `Images.radialFit`
* 367-369: `Images.radialRanges`
* 371-381: `ImageObject.RadialAttrs`
* 408-416: `Images.radialTransform`
* 462, 656, 850: `ImageObject.Kind`
* 521-576, 602-610, 715-770, 796-804, 910-972, 998-1006: `ImageObject.iterCls`
* 530-536: `Images.calcDilation`
* 530-536, 724-730, 919-932: `ImageObject.Kind.calc`
* 561-576,755-770,957-972: `Images.iterFit`
* 602-610: `Images.dilationTransform`
* 724-730: `Images.calcErosion`
* 796-804: `Images.erosionTransform`
* 919-932: `Images.calcSignedDistance`
* 998-1006: `Images.signedDistanceTransform`
* 1110-1133, 1165-1202, 1227-1248: `ImageObject.densityCls`
* 1116-1121: `ImageObject.DensityParams`
* 1123-1133: `Images.calcDensity`
* 1157-1202: `Images.densityFit`
* 1166-1193: `ImageObject.densityBall`
* 1166-1200: `ImageObject.DensityAttrs`
* 1200, 1232: `ImageObject.shape3`
* 1227-1248: `Images.densityTransform`
* 1241-1244: `Images.cropShape`

## gtda/images/preprocessing.py

* 58-69, 94-104, 129-140: `ImageObject.binarizerCls`
* 66-69: `Images.binarizePixel`
* 94-104: `Images.binarizerFit`
* 102: `ImageObject.store`
* 129-140: `Images.binarizerTransform`
* 143-182, 312-351, 483-522: `ImagePlots.heatmapPlot`
* 178-179, 347-348, 518-519: `ImagePlots.Kind.times`
* 180, 349, 520: `ImagePlots.Kind.title`
* 225-237, 261-277, 301-309: `ImageObject.inverterCls`
* 233-237,301-309: `Images.inverterTransform`
* 261-273: `ImageObject.CBatch`
* 261-277: `Images.inverterFit`
* 306: `ImageObject.CBatch.count`
* 392-401, 425-447, 471-480: `ImageObject.padderCls`
* 425-447: `Images.padderFit`
* 471-480: `ImageObject.TBatch`
* 471-480: `Images.padderTransform`
* 563-564, 593: `Stateless.ImgObj`
* 566-568,623-631: `Images.toPointCloud`
* 592, 622: `Stateless.ImgInput.arr`
* 592-593: `Stateless.ImgInput`
* 592-598: `Stateless.imgFit`
* 621-631: `Stateless.imgTransform`
* 624-628: `Stateless.pixel`
* 634-660: `ImagePlots.cloudPlot`

## gtda/local_homology/simplicial.py

* 30-52, 265-272: `LocalObject.new`
* 30-65, 302, 314-329: `LocalObject.Obj`
* 54-155: `LocalObject.Op`
* 54-155: `LocalObject.run`
* 54-155: `LocalObject.step`
* 54-80: `LocalObject.baseFit`
* 60-65: `LocalObject.homologyParams`
* 67-80: `LocalHomology.KNeighbors.baseFit`
* 67-80: `LocalHomology.Radius.fit`
* 115-152: `LocalObject.matrices`
* 115-154, 297-299, 314-329: `LocalObject.LocalEnv`
* 115-155: `LocalObject.transform`
* 123-152: `LocalHomology.conedMatrix`
* 125-152: `LocalObject.conedMat`
* 138: `LocalObject.pointAt`
* 138: `LocalObject.trainingPoints`
* 141-142: `LocalObject.squarePdist`
* 158-191: `Plotting.diagramPlot`
* 195-330: `LocalObject.Cls`
* 252-330: `LocalObject.kCls`
* 254-256: `Validation.nNeighborsRef`
* 265-272: `LocalHomology.KNeighbors.init`
* 265-272: `LocalHomology.KNeighbors.setParams`
* 274-330: `LocalHomology.KNeighbors.fit`
* 295-330: `LocalObject.fit`
* 302-311: `LocalObject.resize`
* 390-455: `LocalObject.rCls`
* 402-409: `LocalHomology.Radius.init`
* 402-409: `LocalHomology.Radius.setParams`

## gtda/mapper/cluster.py

* 19-24, 146-150: `MapperCluster.weightsFor`
* 27-32, 165: `MapperCluster.portion`
* 79-181: `ClusterObject.ParOp`
* 79-181: `ClusterObject.parRun`
* 79-181: `ClusterObject.parStep`
* 79-82, 160, 172: `ClusterObject.ParObj`
* 84-105: `MapperCluster.validateClusterer`
* 84-105, 146-150, 183-187: `ClusterObject.ClusterClass`
* 84-105, 183-187: `ClusterObject.behaviour`
* 107-181: `ClusterObject.parFit`
* 107-181: `MapperCluster.parallelClusteringFit`
* 164-168, 183-187: `MapperCluster.labelsSingle`
* 172-179: `ClusterObject.collect`
* 172-179: `MapperCluster.collectLabels`
* 174-179: `MapperCluster.addLabels`
* 184: `ClusterObject.clone`
* 189-218, 241-268: `ClusterObject.parFitTransform`
* 220-239: `Adapters.clusteringTransform`
* 297-315: `ClusterObject.buildTree`
* 303: `ClusterObject.treeBuilders`
* 306-315, 456-457, 610-611: `ClusterObject.Engine`
* 319, 443-444, 450-457, 597-598, 603-611: `ClusterObject.Obj`
* 322, 461: `ClusterObject.fitPredict`
* 402-408, 439-440, 552-560, 593-594: `ClusterObject.checkParams`
* 402-416, 552-570: `ClusterObject.Rule`
* 405-407, 557: `MapperCluster.checkFraction`
* 410-416, 562-570: `ClusterObject.Op`
* 410-416, 562-570: `ClusterObject.Params`
* 418-458: `MapperCluster.firstSimpleGapFit`
* 418-458, 572-612: `ClusterObject.fit`
* 418-458, 572-612: `ClusterObject.run`
* 418-458, 572-612: `ClusterObject.step`
* 449-451, 603-605: `ClusterObject.numClusters`
* 572-612: `MapperCluster.firstHistogramGapFit`

## gtda/mapper/cover.py

* 87-91, 140, 243, 379-383, 440, 522: `CoverObject.validate`
* 93-96, 385-388: `CoverObject.Op`
* 93-96, 385-388: `CoverObject.Params`
* 93-96, 99, 113: `CoverObject.Obj`
* 98-101, 277-298: `Cover.fitUniform`
* 103-115, 300-320: `Cover.fitBalanced`
* 107-108: `Cover.leftRank`
* 109-112: `Cover.rightRank`
* 117-151: `Cover.coverFit`
* 117-151: `Cover.coverFitLimits`
* 117-151: `CoverObject.fit`
* 117-252: `Cover.CoverOp`
* 117-252: `Cover.coverStep`
* 117-252: `CoverObject.run`
* 117-252: `CoverObject.step`
* 139, 180-185, 242-248, 439-444, 480-484, 521-526: `CoverObject.columns`
* 139-147, 242-248: `CoverObject.prepare`
* 153-154: `Cover.coverMasks`
* 153-154: `Cover.coverRaw`
* 154: `Cover.inIval`
* 156-195: `Cover.coverTransform`
* 156-195: `CoverObject.transform`
* 197-213: `Cover.fitTransformBalanced`
* 215-252: `Cover.coverFitTransform`
* 215-252: `CoverObject.fitTransform`
* 215-252: `MapperPipeline.coverKindFitTransform`
* 254-264: `CoverObject.getFittedIntervals`
* 266-275: `CoverObject.checkLimits`
* 282-298: `Cover.balancedLimits`
* 289-292: `CoverObject.applyToColumns`
* 297: `Cover.openEnds`
* 304-317: `Cover.valueOfRank`
* 322-337: `Cover.coverLimits`
* 385-388, 410, 544: `CoverObject.CubObj`
* 390-402, 410-413, 538-542: `CoverObject.applyToColumns`
* 404-446: `Cover.cubicalFit`
* 404-446: `CoverObject.cubFit`
* 404-547: `Cover.cubicalStep`
* 404-547: `CoverObject.cubRun`
* 404-547: `CoverObject.cubStep`
* 439-444, 521-526: `CoverObject.cubPrepare`
* 448-454: `Cover.cubicalMasks`
* 456-499: `Cover.cubicalTransform`
* 456-499: `CoverObject.cubTransform`
* 501-547: `Cover.cubicalFitTransform`
* 501-547: `CoverObject.cubFitTransform`
* 549-561: `Cover.combineCovers`

## gtda/mapper/filter.py

* 16: `Stateless.fitTransform`
* 16-104: `Stateless.Op`
* 16-104: `Stateless.run`
* 16-104: `Stateless.step`
* 41-44: `Stateless.EccParams`
* 41-44: `Stateless.new`
* 46-74, 76-104: `Stateless.eccentricityCls`
* 71-74: `Stateless.fit`
* 71-74, 95-104: `Stateless.Cls`
* 73: `Stateless.Obj`
* 95: `Stateless.call`
* 95-104: `MapperFilters.eccentricity`
* 100: `Stateless.rows`
* 120-143, 145-176: `Stateless.entropyCls`
* 167-176: `MapperFilters.entropyFilter`
* 193-194: `Stateless.Cols`
* 193-194: `Stateless.Key`
* 196-219, 221-248: `Stateless.projectionCls`
* 216, 243: `Stateless.ofColumns`
* 240-246: `Stateless.Table`
* 243: `Stateless.lookup`
* 244-248: `MapperFilters.projection`
* 246: `Stateless.asIndex`

## gtda/mapper/nerve.py

* 12-26: `Nerve.limitMapping`
* 21-23: `Nerve.limitLoop`
* 70-89: `Adapters.nerveFit`
* 91-170: `Nerve.nerve`
* 126-131: `Nerve.labelsToIndices`
* 126-142: `Nerve.nerveNodes`
* 129: `Nerve.dictAppend`
* 140-142: `Nerve.Node`
* 150-154: `Nerve.Edge`
* 165-168: `Nerve.contractGraph`
* 172-244: `Nerve.generateEdgeData`
* 182-190: `Nerve.metadataAppend`
* 192-207: `Nerve.subsetCheck`
* 232-242: `Nerve.edgeStep`

## gtda/mapper/pipeline.py

* 11: `MapperParams.globalParams`
* 12: `MapperParams.nodesParams`
* 13: `MapperParams.preprParams`
* 14-15: `MapperParams.clustParams`
* 16: `MapperParams.nerveParams`
* 17: `MapperParams.preprPrefix`
* 18: `MapperParams.nodesPrefix`
* 19: `MapperParams.clustPrefix`
* 20: `MapperParams.nervePrefix`
* 59-81: `MapperParams.getMapperParams`
* 75: `MapperParams.lookupParam`
* 83-120: `MapperParams.setMapperParams`
* 98-117: `MapperParams.set`
* 98-117: `MapperParams.setGroup`
* 122-125: `MapperParams.subsetKwargs`
* 127-140: `MapperParams.cleanDictKeys`
* 143-156: `MapperParams.MakeArgs`
* 143-429: `MapperParams.makeMapperPipeline`
* 370-401: `MapperParams.Defaults`
* 374-384: `MapperParams.makeFilter`
* 403-407: `MapperParams.mapAndCover`
* 403-429: `MapperPipeline.mapperFitTransform`
* 409-427: `MapperParams.mapperPipeline`
* 410-412: `MapperParams.pullbackCover`
* 413-416: `MapperParams.clusteringStep`
* 419-424: `MapperParams.nerveKids`
* 419-424: `MapperParams.nerveStep`

## gtda/mapper/utils/_cluster.py

* 7-47: `MapperCluster.numClustersHistogram`
* 11-14, 50-55: `MapperCluster.isGap`
* 18-26: `MapperCluster.gapLoop`
* 58-71: `MapperCluster.numClustersSimple`
* 60: `MapperCluster.ediff`

## gtda/mapper/utils/_cover.py

* 4-6: `CoverObject.oneColumn`
* 9-16: `Cover.cleanMasks`

## gtda/mapper/utils/_list_feature_union.py

* 7-29: `MapperPipeline.mapperFitTransform`
* 21: `Adapters.fitTransformOne`
* 21: `Adapters.hasDunder`
* 21: `Adapters.validate`
* 21, 44: `Adapters.weighted`
* 21, 45: `Adapters.active`
* 21-29: `Adapters.unionFitTransform`
* 24, 28: `Adapters.UnionResult`
* 27: `Adapters.updateList`
* 43-50: `Adapters.unionTransform`

## gtda/mapper/utils/_logging.py

* 10-28: `MapperSession.Call`
* 18-28: `MapperSession.Session.log`
* 20-28: `MapperSession.Session.emit`
* 30-32: `MapperSession.Session.tick`
* 34-36: `MapperSession.Session.clearLog`

## gtda/mapper/utils/_visualization.py

* 75-77: `Visualization.sizeref`
* 80-86: `Visualization.roundSig`
* 89-91: `Visualization.nodeSizes`
* 98-105: `Visualization.nodeText`
* 109-115: `Visualization.nodeStatistics`
* 113: `Visualization.gather`
* 118-167: `Visualization.columnButtons`
* 125-129: `Visualization.replaceStatistic`
* 126: `Visualization.rfindBlank`
* 134, 143: `Visualization.columnOf`
* 142-163: `Visualization.hoverColors`
* 156-163, 425-431: `Visualization.columnColors`
* 157, 425: `Visualization.colMin`
* 158, 426: `Visualization.colMax`
* 170-187: `NodeColors.inferKind`
* 190-284: `NodeColors.validateColors`
* 192-193: `NodeColors.validateStatistic`
* 198, 225: `NodeColors.checkArray`
* 235-236, 280-281: `NodeColors.Arr.table`
* 238-272: `NodeColors.applyFeatures`
* 255-272: `NodeColors.selectColumns`
* 287-382: `NodeColors.calculateGraph`
* 293-298: `NodeColors.nodeColors`
* 315-325: `Visualization.hoverTexts`
* 335-352: `NodeColors.edgeCoords`
* 385-492: `MapperInteractive.staticFigure`
* 402-448: `MapperInteractive.firstLabel`
* 423-457: `Visualization.hoverColors`
* 448-455: `NodeColors.menu`
* 452-471: `MapperInteractive.makeMenu`
* 495-498: `Visualization.hexToRgb`
* 498: `Visualization.hexValue`
* 498: `Visualization.intHex`
* 501-503: `Visualization.rgbToHex`
* 503: `Visualization.fmt02x`
* 503: `Visualization.hexDigit`
* 503: `Visualization.hexDigits`
* 506-550: `Visualization.getColorsForVals`
* 517-521: `Visualization.Colorscale`
* 517-522: `Visualization.scaleColors`
* 517-532: `Visualization.colorTable`
* 520: `Visualization.linspace01`
* 524-530: `Visualization.parseColors`
* 528: `Visualization.asRgb`
* 534-536: `Visualization.slopes`
* 540: `Visualization.digitize`
* 540-547: `Visualization.interpolate`
* 542-547: `Visualization.channel`
* 547: `Visualization.toUint8`

## gtda/mapper/utils/decorators.py

* 60: `Adapters.extFitTransform`
* 61-68: `Adapters.extTransform`
* 65-67: `Adapters.asColumn`
* 66: `Adapters.Array12`
* 70: `Adapters.extName`

## gtda/mapper/utils/pipeline.py

* 11-60: `MapperFilters.callableOnRows`
* 22-65: `Adapters.rowsFitTransform`
* 68-69: `Adapters.identityFitTransform`

## gtda/mapper/visualization.py

* 173-188: `NodeColors.staticPlot`
* 291-299: `MapperSession.Session.plotInteractive`
* 384-387: `MapperInteractive.State`
* 384-387: `MapperSession.Session.new`
* 384-387, 389-715: `MapperSession.run`
* 384-387, 389-715: `MapperSession.step`
* 384-387, 459-463, 649-668: `MapperSession.Plotter`
* 389-391: `MapperInteractive.Engine`
* 389-715: `MapperInteractive.plot`
* 389-715: `MapperSession.Call`
* 389-715: `MapperSession.Session.plot`
* 459-463: `MapperInteractive.State.withPipeline`
* 459-463: `MapperSession.Ref`
* 459-463: `MapperSession.Session.pipe`
* 465-505: `MapperInteractive.widgetsPerParam`
* 466-505: `MapperInteractive.widgetOf`
* 469-505: `MapperInteractive.Kind`
* 469-505: `MapperInteractive.kindOf`
* 469-505: `MapperInteractive.widgetFor`
* 470-505: `MapperInteractive.enter`
* 470-505, 591, 595: `MapperSession.Panel.update`
* 507-591: `MapperSession.Session.view`
* 507-595: `MapperInteractive.changes`
* 507-595: `MapperInteractive.update`
* 507-595: `MapperSession.Session.store`
* 507-595: `MapperSession.updateRecords`
* 507-600: `MapperSession.Session.enter`
* 510-524: `MapperInteractive.push`
* 510-524: `MapperInteractive.pushed`
* 510-524: `MapperSession.Session.setPipe`
* 511: `MapperInteractive.intFloatStr`
* 513: `MapperInteractive.widgetValue`
* 521: `MapperInteractive.intBool`
* 526, 592-594: `MapperSession.Record`
* 526-591: `MapperSession.newGraphError`
* 528-535: `MapperInteractive.newGraph`
* 536-591: `MapperInteractive.draw`
* 536-591: `MapperSession.drawError`
* 549-591: `MapperInteractive.drawTraces`
* 549-591: `MapperSession.drawTracesError`
* 567-589: `MapperInteractive.makeMenu`
* 597-600: `MapperInteractive.change`
* 597-600: `MapperInteractive.observed`
* 597-600: `MapperSession.reacts`
* 602-687: `MapperSession.Panel`
* 605-611: `MapperSession.Panel.tick`
* 605-611: `MapperSession.Session.displayed`
* 605-611, 642-646, 687: `MapperSession.Session.tick`
* 614-619: `MapperSession.Session`
* 621-687: `MapperSession.plotBody`
* 623-632: `MapperInteractive.Groups`
* 623-632: `MapperInteractive.groups`
* 625: `MapperInteractive.coverPrefix`
* 626-632: `MapperInteractive.allWidgets`
* 626-632: `MapperSession.Session.widgets`
* 628: `MapperInteractive.clustererPrefix`
* 635-639, 712-713: `MapperSession.Session.valid`
* 712-713: `MapperSession.Session.figureOf`
* 717-719: `MapperSession.Session.graph_`
* 721-723: `MapperSession.Session.pipeline_`
* 725-727: `MapperSession.Session.color_features_`
* 729-731: `MapperSession.Session.node_summaries_`
* 733-735: `MapperSession.Session.figure_`

## gtda/metaestimators/collection_transformer.py

* 89-94, 129: `Adapters.CollObj`
* 96-103: `Adapters.validateTransformer`
* 105-190: `Adapters.CollOp`
* 105-190: `Adapters.collStep`
* 125-130: `Adapters.collFit`
* 132-166: `Adapters.collFitTransform`
* 132-166: `LocalHomology.collectionFitTransform`
* 168-190: `Adapters.collTransform`

## gtda/pipeline.py

* 12-442: `PipelineNesting.asEst`
* 98-143: `Pipeline.fitInner`
* 98-143, 173-176, 205-213, 244-252: `PipelineCache.call`
* 98-252: `PipelineCache.Op`
* 98-252: `PipelineCache.run`
* 98-252: `PipelineCache.step`
* 99: `PipelineCache.CStep`
* 99: `PipelineNesting.states`
* 99, 140: `PipelineNesting.put`
* 101-106: `PipelineCache.World`
* 104-106: `PipelineCache.lookup`
* 104-106, 126-135: `PipelineCache.Key`
* 108-109: `Pipeline.emptyParams`
* 108-112: `Pipeline.routeParams`
* 108-113: `PipelineCache.CKind`
* 110-112: `Pipeline.routeOne`
* 111: `Pipeline.split2`
* 113: `PipelineCache.deref`
* 113: `PipelineCache.resolve`
* 113: `PipelineNesting.lift`
* 113: `PipelineNesting.liftStep`
* 113: `PipelineNesting.nest`
* 113-140: `Pipeline.fitLoop`
* 113-140: `PipelineCache.loop`
* 114-140: `PipelineCache.stepFit`
* 121-135: `Pipeline.fitOne`
* 122-124: `PipelineCache.resamples`
* 141, 206, 245, 303, 333, 369: `PipelineNesting.finalEst`
* 145-252: `PipelineCache.Method`
* 173-176: `Pipeline.fit`
* 174, 207-208, 246-247: `PipelineCache.passOut`
* 174-176, 209-213, 248-252: `PipelineCache.lastCall`
* 176, 208-213, 247-252: `PipelineCache.Out`
* 206-213: `Pipeline.fitTransform`
* 245-252: `Pipeline.fitTransformResample`
* 254-282: `PipelineNesting.fitPredict`
* 284-311: `PipelineNesting.callResample`
* 303-305: `PipelineNesting.hasResample`
* 307-311: `Pipeline.resample`
* 313-348: `PipelineNesting.callTransformResample`
* 333-339: `PipelineNesting.hasTransformResample`
* 341-348: `Pipeline.transformResample`
* 344-347: `Pipeline.transformResampleOne`
* 350-377: `PipelineNesting.callTransform`
* 369-371: `PipelineNesting.hasTransform`
* 373-377: `Pipeline.transform`
* 379-408: `PipelineNesting.callInverse`
* 399-401: `PipelineNesting.hasInverse`
* 403-408: `Pipeline.inverseTransform`
* 410: `PipelineNesting.hasScore`
* 410-442: `PipelineNesting.callScore`
* 411-442: `PipelineScore.scoreWeighted`
* 432-442: `Pipeline.score`
* 445-453: `Pipeline.fitTransformOne`
* 452, 466: `PipelineCache.Stored`
* 456-467: `Pipeline.fitTransformResampleOne`
* 513-517: `PipelineNesting.makePipeline`
* 517: `PipelineNesting.nameEstimators`

## gtda/plotting/diagram_representations.py

* 8-89: `Plotting.plotBettiCurves`
* 92-187: `Plotting.plotBettiSurfaces`

## gtda/plotting/images.py

* 7-62: `ImagePlots.plotHeatmap`
* 47-62: `ImagePlots.PropTree.get`
* 53-62: `ImagePlots.Figure`
* 54: `ImagePlots.Data.timesOne`
* 59-60: `ImagePlots.update`

## gtda/plotting/persistence_diagrams.py

* 8-145: `Plotting.plotDiagram`
* 36-37: `Plotting.requestedDims`
* 39: `Plotting.removeDiagonal`
* 40-45: `Plotting.finiteEntries`
* 43-49: `Plotting.limits`
* 70-90: `Plotting.dimMarkers`
* 71: `Plotting.diagramLabel`
* 73-83: `Plotting.hoverTexts`
* 87-90: `Plotting.Markers`

## gtda/plotting/point_clouds.py

* 10-135: `Plotting.plotPointCloud`
* 40: `Plotting.dimensionRef`
* 41-42: `Plotting.effectiveDimension`
* 84-92, 119-128: `Plotting.CloudFigure`

## gtda/point_clouds/rescaling.py

* 108-122: `PointClouds.consistentRescaling`
* 112-114: `PointClouds.kthInRows`
* 124-192: `PointClouds.consistentTransform`
* 195, 224-228, 389, 418-422: `ImagePlots.Kind.hasOrigin`
* 195-228, 389-422: `ImagePlots.heatmapPlot`
* 226, 420: `ImagePlots.Kind.title`
* 308-386: `PointClouds.consecutivePrecomputed`
* 345-386: `PointClouds.consecutivePoints`
* 385: `PointClouds.scaleConsecutive`

## gtda/time_series/_utils.py

* 11-41: `Stateless.takensEntry`
* 13-30: `TimeSeries.takens1`
* 14-28: `TimeSeries.takensIndices`
* 30: `TimeSeries.takensMulti`
* 31-34: `TimeSeries.takensMultiFlat`
* 44-50: `TakensSearch.mutualInformation`
* 46-47: `TakensSearch.binIndex`
* 46-47: `TakensSearch.binRange2d`
* 46-47: `TakensSearch.binsOf`
* 48-49: `TakensSearch.mutualInfoScore`
* 53-89: `TakensSearch.falseNeighbors`
* 59-63: `TakensSearch.secondNeighbors`
* 74-88: `TakensSearch.criteria`

## gtda/time_series/embedding.py

* 97-114: `TakensSearch.optimalParameters`
* 98-114: `TimeSeries.takensOptimal`
* 118-277: `PipelineSeries.slidingStep`
* 183-194: `TimeSeries.windowIndices`
* 196-198: `TimeSeries.sliceWindows`
* 200-223, 225-249, 251-276: `Stateless.slidingCls`
* 243-249: `TimeSeries.slidingTransform`
* 248: `Stateless.entries`
* 272-276: `TimeSeries.slidingResample`
* 273: `Stateless.columnOr1d`
* 281-511: `PipelineSeries.takensStep`
* 411-417: `SeriesObject.TParams`
* 411-417: `SeriesObject.newTakens`
* 411-454: `SeriesObject.TOp`
* 411-454: `SeriesObject.takensRun`
* 440-454: `SeriesObject.takensFit`
* 444-452: `SeriesObject.Takens`
* 444-452: `TimeSeries.singleTakensFit`
* 475-483: `SeriesObject.takensTransform`
* 475-483: `TimeSeries.singleTakensTransform`
* 506-511: `SeriesObject.takensResample`
* 506-511: `TimeSeries.singleTakensResample`
* 635-641: `Stateless.TakensParams`
* 643-674, 676-725: `Stateless.takensCls`
* 676-725: `Stateless.Embedded`
* 728-754: `ImagePlots.cloudPlot`

## gtda/time_series/features.py

* 47-50: `SeriesFeatures.entropy2d`
* 52-57: `SeriesFeatures.permutationEntropy`
* 59-82, 84-110: `Stateless.permutationEntropyCls`
* 106-110: `SeriesFeatures.permutationEntropyTransform`

## gtda/time_series/multivariate.py

* 54-80, 82-109: `Stateless.pearsonCls`
* 104-107: `SeriesFeatures.pearsonDissimilarity`
* 104-109: `SeriesFeatures.pearsonTransform`
* 105: `Stateless.matrices`

## gtda/time_series/preprocessing.py

* 14-122: `PipelineSeries.resamplerStep`
* 48-71, 73-98, 100-122: `Stateless.resamplerCls`
* 73, 100: `Stateless.Call`
* 73-122: `Stateless.Result`
* 91-98: `TimeSeries.resamplerTransform`
* 118-122: `TimeSeries.resamplerResample`
* 125-245: `PipelineSeries.logReturnStep`
* 125-245: `PipelineSeries.returnStep`
* 163-168: `Stateless.Operation`
* 170-193, 195-222, 224-245: `Stateless.stationarizerCls`
* 219-220: `TimeSeries.stationReturn`
* 221-222: `TimeSeries.stationLogReturn`
* 242-245: `TimeSeries.stationResample`

## gtda/time_series/target.py

* 68-78, 106: `SeriesObject.labellerValidate`
* 80-122: `SeriesObject.LOp`
* 80-122: `SeriesObject.labellerRun`
* 80-86: `SeriesObject.LParams`
* 80-86: `SeriesObject.newLabeller`
* 105-122: `SeriesObject.labellerFit`
* 108-114: `TimeSeries.labellerWindowed`
* 108-120: `SeriesObject.Labeller`
* 116-120: `TimeSeries.labellerThresholds`
* 142-149: `SeriesObject.labellerObjTransform`
* 142-149: `TimeSeries.labellerTransform`
* 169-188: `SeriesObject.labellerObjResample`
* 169-188: `TimeSeries.labellerResampleClf`
* 169-188: `TimeSeries.labellerResampleReg`
* 175-183: `TimeSeries.labellerClassify`
* 177-182: `TimeSeries.labellerOneHot`
* 185-188: `TimeSeries.labellerCut`

## gtda/utils/_docs.py

* 10: `Docs.inputsStart`
* 11: `Docs.inputsEnd`
* 12: `Docs.outputsEnd`
* 15-18: `Docs.getPreamble`
* 21-24: `Docs.getInputs`
* 27-33: `Docs.getOutputs`
* 36-70: `Docs.makeDocs`
* 38-40: `Docs.introDocs`
* 38-40: `Docs.wordSub`
* 73-114: `Docs.adapt`

## gtda/utils/intervals.py

* 8-11: `IntervalsMore.Key`
* 14, 49-51: `IntervalsMore.Object`
* 14-193: `IntervalsMore.eqOf`
* 30: `Intervals.Closed.str`
* 30: `Intervals.parseClosed`
* 32: `Intervals.construct`
* 32-51: `Intervals.mkInterval`
* 53-58: `Intervals.closedLeft`
* 60-65: `Intervals.closedRight`
* 67-72: `IntervalsMore.openLeft`
* 74-79: `IntervalsMore.openRight`
* 81-87: `IntervalsMore.mid`
* 89-95: `IntervalsMore.length`
* 97-102: `Intervals.isEmpty`
* 104-105: `IntervalsMore.hashOf`
* 104-105: `IntervalsMore.lookup`
* 107-111: `Intervals.contains`
* 107-111: `IntervalsMore.containsKey`
* 113-115: `Intervals.reduceArgs`
* 113-115: `Intervals.unpickle`
* 117-122: `IntervalsMore.reprOf`
* 124-128: `IntervalsMore.strOf`
* 130-135: `Intervals.pyAdd`
* 137-140: `Intervals.pySub`
* 142-147: `Intervals.pyMul`
* 154-157: `Intervals.pyDiv`
* 159-163: `IntervalsMore.floorDiv`
* 165-193: `Intervals.intersects`

## gtda/utils/validation.py

* 14-25: `InputChecks.checkArrayMod`
* 28-87: `Diagrams.checkDiagrams`
* 48-49, 87: `Diagrams.checkDiagramsRef`
* 50-87: `Vectorizers.check`
* 63-77: `Diagrams.checkDim`
* 90-92: `Stateless.geodesicCls`
* 96: `Validation.typesTuple`
* 98-128: `Validation.single`
* 105: `Validation.typeOk`
* 113: `Validation.declaredContainer`
* 115-120: `Validation.admCheck`
* 121-123: `Validation.otherCheck`
* 130-138: `Validation.checkNamed`
* 137-149: `Validation.checkParam`
* 152-202: `Validation.validateParams`
* 205-309: `InputChecks.checkPointClouds`
* 245, 335: `InputChecks.Input`
* 275-295, 341-357: `InputChecks.checkEntries`
* 277-284: `InputChecks.checkCloud`
* 307: `InputChecks.stack`
* 312-359: `InputChecks.checkCollection`
