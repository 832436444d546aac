import Verif.Py.Basic
import Verif.Py.Text
import Verif.Py.Seq
import Verif.Py.Str
import Verif.Box.Props
import Verif.FineCoarse.Props
import Verif.FineCoarse.PropsProportions
import Verif.FineCoarse.PropsTartan
import Verif.Factors.Props
import Verif.Xml.Props
import Verif.Catalogue.Props
import Verif.Catalogue.PropsRels
import Verif.Query.Props
import Verif.Consolidation.Props
import Verif.Hdf5.Props
import Verif.Lookup.Props
import Verif.TimeSeries.Props
import Verif.TimeSeries.PropsList
import Verif.Units.Props
import Verif.Crs.PropsAxes
import Verif.Crs.Props
import Verif.Volume.Props
import Verif.Pillars.Props
import Verif.GridFns.Props
import Verif.Pinchout.Props
import Verif.Gcs.PropsMasks
import Verif.Gcs.PropsFilter
import Verif.Gcs.PropsCache
import Verif.Gcs.PropsInherit
import Verif.Gcs.PropsTrans
import Verif.Gcs.PropsFaceArrays
import Verif.Gcs.PropsTable
import Verif.Polygon.Props
import Verif.Polygon.PropsScan
import Verif.Polygon.PropsPixel
import Verif.Lines.Props
import Verif.Zones.Props
import Verif.Keywords.Props
import Verif.TriMesh.Props
import Verif.TriMesh.PropsEdges
import Verif.Wells.Props
import Verif.Wells.PropsFrame
import Verif.Wells.PropsSurvey
import Verif.CpGrid.Props
import Verif.Extract.Props
import Verif.Upscale.Props
import Verif.Decoarsen.Props
import Verif.Refine.Props
import Verif.Refine.PropsInherit
import Verif.Refine.PropsCoarsen
import Verif.Derived.PropsUnsplit
import Verif.Derived.PropsZonal
import Verif.Derived.PropsDepth
import Verif.Derived.PropsInterp
import Verif.Derived.PropsThrow
import Verif.Derived.PropsDrape
import Verif.AddFaults.Props
import Verif.Geom.Props
import Verif.Geom.PropsPlane
import Verif.Geom.PropsScan2
import Verif.FindFaces.Props
import Verif.FindFaces.PropsColumn
import Verif.FindFaces.PropsShadow
import Verif.FindFaces.PropsFind
import Verif.Rotate.Props
import Verif.Rotate.PropsRot
import Verif.Delaunay.Model
import Verif.Delaunay.Spec
import Verif.Delaunay.Geo
import Verif.Delaunay.Wind
import Verif.Delaunay.Closed
import Verif.Delaunay.Struct
import Verif.Delaunay.Step
import Verif.Delaunay.Lawson
import Verif.Delaunay.Insert
import Verif.Delaunay.Frame
import Verif.Delaunay.Props
import Verif.PropColl.Model
import Verif.PropColl.Spec
import Verif.PropColl.Lemmas
import Verif.PropColl.Props
import Verif.PropColl.Flags
import Verif.PropColl.PropsFlags
import Verif.PropColl.PropsStack
import Verif.PropColl.Mask
import Verif.PropColl.PropsMask
import Verif.PropColl.PropsNorm
import Verif.PropColl.Import
import Verif.PropColl.PropsImport
import Verif.Plane.Model
import Verif.Plane.Props
import Verif.Plane.PropsAligned
import Verif.Plane.Matrix
import Verif.Plane.PropsMatrix
import Verif.Plane.Measure
import Verif.Plane.PropsMeasure
import Verif.Plane.PropsSort
import Verif.Transmit.Juxta
import Verif.Transmit.Overlap
import Verif.Transmit.Patterns
import Verif.Transmit.PropsJuxta
import Verif.Transmit.PropsJuxtaArea
import Verif.Transmit.HalfCell
import Verif.Transmit.PropsHalfCell
import Verif.Transmit.Between
import Verif.Transmit.PropsBetween
import Verif.Transmit.Prism
import Verif.Transmit.PropsPrism
import Verif.Unstruct.Model
import Verif.Unstruct.Spec
import Verif.Unstruct.Lemmas
import Verif.Unstruct.Props
import Verif.Unstruct.Hexa
import Verif.Unstruct.PropsHexa
import Verif.TriEdges.Model
import Verif.TriEdges.Spec
import Verif.TriEdges.Props
import Verif.TriEdges.PropsRims
import Verif.Unstruct.Prism
import Verif.Unstruct.PropsPrism
import Verif.Unstruct.PropsPrismGrid
import Verif.Unstruct.Tetra
import Verif.Unstruct.PropsTetra
import Verif.Unstruct.PropsTetraVolume
import Verif.Unstruct.PropsTetraPrism
import Verif.Blocking.Derive
import Verif.Blocking.PropsDerive
import Verif.Blocking.Kh
import Verif.Blocking.PropsKh
import Verif.Blocking.PropsStart
import Verif.Blocking.PropsRefs
import Verif.Blocking.PropsInflow
import Verif.Blocking.Dataframe
import Verif.Blocking.PropsDataframe
import Verif.Blocking.Angles
import Verif.Blocking.PropsAngles
import Verif.Polyline.Model
import Verif.Polyline.PropsAlong
import Verif.Polyline.Convex
import Verif.Polyline.PropsConvex
import Verif.Polyline.Nearest
import Verif.Polyline.PropsNearest
import Verif.Polyline.PropsNormalised
import Verif.Polyline.PropsRegular
import Verif.PolySet.PropsStore
import Verif.PolySet.PropsText
import Verif.Surface.PropsMesh
import Verif.Surface.PropsSparse
import Verif.Surface.PropsCell
import Verif.Surface.PropsTrim
import Verif.Surface.PropsPatches
import Verif.Surface.PropsSail
import Verif.Surface.PropsMisc
import Verif.Organize.PropsReuse
import Verif.Organize.PropsRound
import Verif.Organize.PropsRound2
import Verif.Organize.PropsEquiv
import Verif.Organize.PropsColumn
import Verif.Organize.PropsColumn2
import Verif.Frame.Props
import Verif.Frame.PropsDerived
import Verif.ArrayFile.Props
import Verif.ArrayFile.PropsCopy
import Verif.RegGrid.Props
import Verif.RegGrid.PropsStore
import Verif.Mesh.Props
import Verif.Mesh.PropsFile
import Verif.Marker.PropsFrame
import Verif.Marker.PropsTable
import Verif.Marker.PropsDatum
import Verif.Stencil.Props
import Verif.Wellspec.Props
import Verif.Multi.Props
import Verif.Defined.PropsAll
import Verif.Defined.PropsQuery
import Verif.RelPerm.PropsText
import Verif.DataTable.Props
import Verif.FaultTable.PropsText
import Verif.FindFaults.Props
import Verif.Aps.Props
import Verif.GridCache.Props
import Verif.PropKind.Props
import Verif.Ensemble.Props
import Verif.GeoTime.Props
import Verif.GridKind.Props
