# Formal model of bp/resqpy in Lean 4 — design

## What this is

`/verif/lean/Verif` holds a hand-written Lean 4 model of the logic-carrying parts of resqpy
and theorems about that model.  Each definition cites the file and lines in `/repo` that it
models.  Nothing in `/repo` is executed; the correspondence between the Python text and the Lean
definitions is by reading, and is part of the trusted base.

## Layout

Each area `A` has its own directory:

* `Verif/A/Model.lean`  – functions transcribed from the Python, branch by branch
* `Verif/A/Spec.lean`   – what the property means, written without reference to the model's helpers
  (omitted when the statement needs only library notions)
* `Verif/A/Lemmas.lean` – helper lemmas (not claims)
* `Verif/A/Props.lean`  – the property theorems, with an `example` meeting the hypotheses beside each

`Verif/Py` holds the shared rendering of Python notions: exceptions as values (`Except PyErr`),
insertion-ordered dictionaries as association lists, decimal text, whitespace splitting.

## Modelling conventions

* Python `assert`, `raise`, `KeyError`, `TypeError` ... are values of `PyErr`; a function that can
  raise returns `Except PyErr α`.  Nothing is defaulted silently.
* Python ints are `Int` (or `Nat` where the code guarantees non-negativity).
* numpy arrays are functions from indices with an explicit shape, or lists; only indices within the
  shape are meaningful.
* Floating point numbers are modelled as exact elements of a field (`Rat`, `Real` or an arbitrary
  field).  Rounding, NaN (unless explicitly modelled as `none`) and overflow are not modelled.
* Mutation is modelled by state passing; objects whose methods are called in any order are state
  machines, and properties "after any history" are proved by induction on the list of operations.
* Loops are modelled by structural or well founded recursion; a Python loop that might not terminate
  is modelled with explicit fuel and the theorem says that the fuel suffices (or that it never does).

## Where the code does not have the property

When the unchanged code violates the property as stated, the negation is proved with a concrete
witness (theorem name ending `_violated`) and the part that does hold is proved with the suffix
`_partial`; both are listed in MANIFEST.json with a note of what is missing.

## Trusted base

* Lean 4.33.0's kernel.
* Axioms: only `propext`, `Classical.choice` and `Quot.sound` (Lean's standard three); AXIOMS.md lists them theorem by theorem.  No axioms
  are added, and there is no `sorry`, `admit`, `native_decide` or `bv_decide`.
* The reading of the Python source expressed by the `Model.lean` files and by `Verif/Py`.
* numpy, h5py, lxml, zipfile, pandas: behaviour assumed as documented, as stated in comments at the
  definitions concerned.

## Properties: what is modelled and how it is proved

| id | model | proof |
|----|-------|-------|
| C01 | decimal text, box to text, words to box | round trip through digit lists; case analysis for rejection |
| C02 | local/parent conversion, extent, volume | integer arithmetic; counting by explicit enumeration |
| C03 | boxes_overlap, union | pointwise arithmetic; least upper bound |
| C04 | overlapping_boxes, trim_box_by_box | direction loop unrolled as in code; violated when the established box is interior or covers the new box; partial under the exact side condition |
| C05 | trim_box_to_mask | loop invariant for first and last flagged index per axis |
| C06 | FineCoarse ratio vectors, cumulative mapping | induction on ratio vectors |
| C07 | FineCoarse as state machine with cached mapping | invariant over operation lists; violated (cache is never invalidated); partial |
| C08 | factorize, combinatorial, all_factors | trial division invariant; sub-products of a prime list are the divisors |
| C09 | part name strings as character lists | list lemmas on separators |
| C10 | escaping in write_xml_node, unescaping by reader | round trip by induction on text |
| C11 | find_in_ordered_data | well founded recursion on interval |
| C12 | parts dictionaries under add / remove | invariant by induction over operation lists; removal of a part unknown to the relations dictionary violates it |
| C13 | relations dictionary | symmetric-graph invariant; violated by one-sided soft relations; partial for hard relations |
| C14 | `_parts` pipeline of filters | filters as list filters; commutation and monotonicity; empty starting list violates |
| C15 | Consolidation map | invariant over operation lists; violated by self equivalence and chains; partial |
| C16 | dtype choice of H5Register | two's complement truncation; violated outside int32; partial inside |
| C17 | packbits / unpackbits | induction on bit lists |
| C18 | reshaped index | mixed radix arithmetic by induction on shapes |
| C19 | StringLookup | refinement to finite map; `set_string` violates; partial for construction |
| C20 | TimeSeries list operations | sortedness invariant; `closest_to` violated; partial |
| C21 | Crs transforms over a field | ring identities |
| C22 | switch_axes | finite table lifted over points; violated for non commuting pairs; partial |
| C23 | handedness tables | complete finite case analysis |
| C24 | tetra volumes | polynomial identities over a field; enclosed volume specified as an integral of the Jacobian; violated for twisted faces (sign of correction); partial |
| C25 | resequence_nexus_corp | permutation of indices, involution |
| C26 | columns_to_nearest_split_face | iterated relaxation equals Manhattan distance |
| C27 | split_column_faces | violated at last row / column; partial in the interior |
| C28 | pinchout scan | loop invariant; violated by successive pinchouts; partial |
| C29 | convert | field identities |
| C30 | TriMesh index arithmetic | linear arithmetic over an ordered field with floor |
| C31 | pillars_for_column, pillar_foursome | fold over extra pillars, last write wins in both |
| C32 | zone_layer_ranges_from_array | list reasoning; gap branch raises |
| C33 | file position scanning | induction on remaining lines; single character comment lost |
| C34 | connection set caches | state machine; stale transmissibilities violate; partial |
| C35 | vertex thinning | fold invariant; all-coincident polyline violates; partial |
| C36 | crossing / winding number | sums over edges; parity |
| C37 | FineCoarse proportions | sums over ratio vectors; stale cache violates; partial |
| C38 | tartan_refinement | loop invariants over the slice assignments |
| C39 | xml tag match and prefix stripping | list lemmas on the last separator |
| C40 | uuid text, parsing, matching | base 16 round trip by induction |
| C41 | TimeSeries from list, calendar arithmetic | sorting and duplicate detection by induction |
| C42 | Crs rotation matrices | trigonometric identities, case analysis on axis order |
| C43 | Crs.convert_array_to and is_equivalent | list induction; violated because equivalence ignores rotation units; partial |
| C44 | pyramid and tetrahedron volumes, HexaGrid.volume | polynomial identities, all listings of faces; disagreement with block grid volume |
| C45 | left_right_foursome | cross product specification; case analysis over steps lifted to all paths |
| C46 | infill_block_geometry | loop invariant per column; violated by snapping (default) and small overlaps; partial |
| C47 | translate_corp | floor arithmetic; rounding of a given shift violates |
| C48 | GridConnectionSet from masks, skin | index arithmetic, membership by axis |
| C49 | sort_and_remove_duplicates, from_faces_indices | insertion sort invariants; properties are not re-sorted when there are no duplicates: violates; partial |
| C50 | filters, single_feature, feature by name | renumbering as injection; default layer limits and name prefixes violate; partial |
| C51 | append | index map over combined feature list |
| C52 | inherit_features | binary search and loop invariants; common or unused features violate; partial |
| C53 | tr_property_array | field identities; face of the wrong side violates; partial |
| C54 | write_simulator | lines read back by a small reader; run merging by induction; multipliers violate; partial |
| C55 | combined_tr_mult_from_gcs_mults | fold per face |
| C56 | grid_columns_property_from_gcs_property | fold per column; default null of discrete data violates |
| C57 | set_pairs_from_faces_df | permutation of faces row by row; existing objects violate; partial |
| C58 | k_gap_connection_set, k_raw_index_array | counting induction |
| C59 | grid_face_arrays | last assignment wins; baffles violate; partial |
| C60 | scan of a polygon over pixels | row by row slices against crossing parity; polygons left of the frame violate; partial |
| C61 | pixel_map_for_split_horizon_points | last column containing the pixel centre; frame edges violate; partial |
| C62 | read_lines | induction on lines, with a writer as specification |
| C63 | TriMesh.triangles_and_points | index arithmetic with two's complement wrapping; big meshes violate; partial |
| C64 | TriMesh.edge_zero_crossings | the pairs of slices as a list of node pairs, shown to be the sides of the triangles once each; zeros exactly at nodes violate; partial |
| C65 | TriMesh.axial_edge_crossings | branch by branch; exact rows and origins violate; partial |
| C66 | xyz_for_md | the binary search by strong induction on the length of the bracket; result equivalent to lying on the path |
| C67 | blocked well look-ups | each loop against one specification of the interval of a cell, by induction on the grid indices |
| C68 | frame to blocked well | overlap of intervals as specification; telescoping sums of clamped depths; touching intervals violate; partial |
| C69 | partial perforation | induction on the perforations with pairwise zero overlap; overlapping ones violate; partial |
| C70 | minimum curvature | over the reals with Mathlib's calculus: the arc is exhibited with its derivatives; three violations; partial |
| C71 | inclinations | arctan by quadrant against arccos; straight up violates; partial |
| C72 | `grid_from_cp` | loop invariant over pillars and corners for the extra pillar lists; split tables read back through C31; planes by raw index; in-memory raw index violates; partial |
| C73 | sharing of pillars in `grid_from_cp` | from the same invariant |
| C74 | boxes extracted from grids (`extract_box`): tables, points, K gaps, mask | loop invariant: after each extra pillar of the source, base points and new extras are determined by the extras so far; then the mapping of the new tables (C31) gives the source pillar at every corner. False for pillars split more than once (witness) |
| C75 | upscaling of properties (`_extend_imported_with_coarsening`) with arrays in a heap, since some are changed in place | the state after each pass computed; sums over boxes of cells as finite sums; weights not negative. Five violations with witnesses; partial |
| C76 | `decoarsen_imported_list`: shares from ICOARS or KID data, redistribution in list order with the variable carried over | loop invariant over cells in natural order: the cells seen to are those whose host has been met; sums over boxes. Three violations; partial |
| C77 | `refined_grid`: `_refined_unfaulted_grid` with K gaps, corner points of `_refined_faulted_grid` | prefix sums of ratios; invariant of the walk along K over coarse layers (fine layer, gaps so far, raw index and gap arrays); linear interpolation along three axes is trilinear |
| C78 | `_extend_imported_no_coarsening` with a refinement: selection, sampling, scaling of lengths | lookup vectors from C06, proportions from C37; two violations (constant cell lengths, string lookups); partial |
| C79 | `coarsened_grid`: K indices from constant or varying ratios, pillars from `fine_for_coarse_natural_pillar_index` | prefix sums of ratios shared with C06; the round trip uses C77 |
| C80 | `unsplit_points_ref` with its cache, `unsplit_grid` | nine cases of node, each shown equal to the mean over the columns around it; mapping from C31. One violation; partial |
| C81 | `zonal_grid`: limits, choice of ranges, inactive mask, interfaces, block dimensions | list induction over interfaces; zones from C32. Four violations; partial |
| C83 | `local_depth_adjustment` over the reals: decay, loop over pillars | invariant of the loop; decay shown continuous, falling, one at the centre and zero at the radius. Two violations; partial |
| C82 | `interpolated_grid`: choice of method, blending by pillar or by corner point, voids, masks | blend of corners; the corner point branch by the lemmas of C72. One violation; partial |
| C84 | `fault_throw_scaling` with one factor: offsets, sweeps over nodes | closed form of one sweep by list induction; invariant over sweeps with distance to the nearest fault; the weights telescope |
| C85 | `drape_to_surface`: translations, kept unsplit points | mean of a translated list; the pillar tables through C31. One violation |
| C86 | `add_faults`: `_fault_from_pillar_list` and all it calls | flat tables refined to lists of columns; a relation for the pillar used by a corner; invariants per corner, per pillar and per path. One violation |
| C87 | `olio/intersection.py`: line with plane and triangles, all vectorised forms | Cramer's rule against weighted means of the corners over any ordered field; the determinant vanishes exactly for dependent directions; vectorised forms refined to the single one |
| C88 | `olio/intersection.py` lines in the plane; distances in `vector_utilities.py` | as C87 in two dimensions; nearest points by completing the square; square roots over the reals. One violation |
| C89 | `points_in_triangles_aligned_optimised`, `_serial` and `_unified` | the triangle above one x is the span between two edges at a corner; ranges by floor and ceiling; batches are slices which cover the list. One violation |
| C90 | `grid_surface/_find_faces.py` search by `regular_optimised` | units of cells by an invertible map; hits are those of C89; masks and lists kept parallel. Three violations |
| C91 | bisectors from faces and from indices of faces | flood fill as least closed set; box around the faces and outside of it; mean layers as sums over cells. One violation |
| C92 | column bisectors | flood fill as least closed set |
| C93 | shadows | induction over layers, down and up. One violation |
| C94 | `olio/vector_utilities.py` azimuths, inclinations, unit vectors | over the reals with exact trigonometric functions; sectors by cases. Two violations |
| C95 | rotation matrices | matrices over the reals; orthogonality and determinant from the sum of squares. One violation |
| C96 | tilting of points | product of three rotations; the pivot, the hinge line and the dip direction |
| C97 | projecting onto planes | as tilting back, flattening and tilting; equal to the foot of a perpendicular for level and upright planes. One violation |
| C98 | `_dt_simple`: arrays of triangles, edges and flips as in the code (`Verif/Delaunay/Model.lean`) | invariant of the arrays (`Good`), of the edges adding up to the container (`Cycle`), empty circles before and after every insertion; local Delaunay edges to empty circles by turn counts around the inserted point. Three points: violated |
| C99 | the same | covering by turn counts; a point not a corner would be within the circle of the triangle it is in |
| C100 | `Part`, `Query`, `skipped`, `addSelected`, `selectiveVersion`, `singleton` (`Verif/PropColl/Model.lean`); criteria in `Spec.lean` | each criterion shown equivalent to its meaning, then induction over the members. Unit of measure, * for kind and time index: violated |
| C101 | `inheritAll`, `inheritSelectively`, `inheritTimeSeries`, `inheritRealizations`, `inheritFacets` | induction over the members; prefix kept in every branch |
| C102 | `Verif/PropColl/Flags.lean`: the scans and the answers kept | induction over the members; histories: violated with witness |
| C103 | `stackChecks`, `setSlices`, `listSlices`, `facetSlices` | as many distinct numbers as members gives distinct numbers; induction over the slices set |
| C104 | `Verif/PropColl/Mask.lean`: shapes, numpy broadcasting of the mask of points | case analysis over None, NaN, zero and other null values |
| C105 | the same, with `minMaxCached`, `xmlNodes` | least and greatest of the visible numbers by induction |
| C106 | `normalized` and its helpers; the logarithm is a parameter | the result as one map applied to each element; ordered field arithmetic |
| C107 | `Verif/PropColl/Import.lean` | cases over the six faces and four edges, for any leading index |
| C108 | `writeImported` over the storage model of `Verif/Hdf5` | induction over the list with the dtype carried; reading back from C16 and C17 |
| C109 | `similarArgs`, `addSimilar` | field by field |
| C110 | `Verif/Plane/Model.lean`: `pipStep`, `pointInPolygon`, `pointInTriangle` and the versions for many points | parity of crossings by induction over the edges; reflection to the crossing number of C36 |
| C111 | `Verif/Plane/Matrix.lean`: `projectedAxes`, `clockwiseTriangles`, `inOne` | the signs of three determinants against barycentric coordinates; degenerate triangles with edges: violated |
| C112 | `alignedTriangle`, `pointsInTrianglesAligned` with rounding up and down | every middle inside a triangle is inside the box searched |
| C113 | `Verif/Plane/Measure.lean`: `heron`, `normalVector`, `circumcentre` | polynomial identities over the reals |
| C114 | `argMin`, `clockwiseSorted`, `xySorted` | induction over the points; merge sort; sine of the difference of azimuths |
| C115 | `Verif/Transmit/HalfCell.lean`: `plainK/J/I`, `splitK/J/I`, `axisT`, `halfCellIrregular`, `halfCellRegular`, `darcyFor` | all six array formulae reduced to one in the eight corners; box and shear by polynomial identities |
| C116 | `Verif/Transmit/Between.lean`: `faceT'`, `facesFor`, `halfCellTransmissibility`, `transmissibility` with the cached attributes as state | case analysis of each face; all branches of the cache; several parts violated |
| C117 | `Verif/Transmit/Juxta.lean`: the nested functions of fault_connection_set; `Verif/Transmit/Overlap.lean`: overlap as an integral | an exact integral for each of the 34 reachable patterns of crossing; induction over layers |
| C118 | `Verif/Transmit/Prism.lean`: `normalLength`, `flowLength`, `halfCell`, `triplePermeability` | polynomial identities over the reals; three parts violated |
| C119 | `Verif/Unstruct/Model.lean`: `Jagged` (packed lists), `setCellsPerFace` with its cache, masked variants, `distinctNodes`, `distinctEdges`, `pyramidFaces` | invariant over the scan of cells: each face holds its users so far; refusal characterised exactly |
| C120 | `Verif/Unstruct/Hexa.lean`: `cellFaces`, `faceRows`, `nodeRows`, `volume` | faces numbered by a bijection of places; sums of pyramids by `ring`; sign violated |
| C121 | `Verif/TriEdges/Model.lean`: `edges`, `usingPoint`, `usingEdge`, `usingEdges`, `rimEdges`, `internalEdges` | induction over an ordered counted list |
| C122 | `Verif/TriEdges/Model.lean`: `rims`, `follow`, `findUnused` | parity of the unused edge ends at each point is invariant; number of unused edges decreases |
| C123 | `Verif/Unstruct/Prism.lean`: `findPair`, `fromSurfaces`, `zValue`, `cornerNodes`, `columnCount`, `triangulation` | halving search correct on any ordered list; counting the users of each face; single layer violated |
| C124 | `Verif/Unstruct/Tetra.lean`: `fromCell` (`addTriangle`, `placeFace`), `volumes`, `cellVolume`, `cellCentre`, `pyramidCellVolume` | invariant over the triangles added; sum over a closed surface independent of the origin; sign conditions; prism by `ring` |
| C125 | `Verif/Blocking/Derive.lean`: `verifyGridName`, `fabricateEntry`, `fabricateExit`, `addInterval`, `step`, `loop`, `addTail`, `deriveFromDataframe`, `columnRows`, `deriveFromWellspec` | invariant of the lists built up, by induction over the rows; faces of moves by cases; violations by computation |
| C126 | `Verif/Blocking/Dataframe.lean`: `verifySaturations`, `verifyKh`, `inflow`, `skipCheck`, `partFor`, `lengthOf`, `khOf`, `rowFor`, `rowsFrom`, `dataframe`, `staticKh`, `addAsProperties`, `depthFor` | rows by induction over intervals; limits dropped as void shown harmless; violations by computation |
| C127 | `Verif/Blocking/Kh.lean`: `verifyPermUuids`, `directionalPerm`, `ntgUsed`, `khGeneral`, `khFor`, `kh` | algebra over the real numbers with square and cube roots |
| C128 | `Verif/Blocking/Kh.lean`: `radwIn`, `keRadw`, `radbIn`, `radbE`, `radbFor`, `wiFor` | algebra over the real numbers against Peaceman's formula |
| C129 | `Verif/Blocking/Angles.lean`: `verifyRefs`, `refVector`, `wellVector`, `vertical`, `lateral`, `throughK`, `joined`, `angles` | completeness of orthonormal frames; real trigonometry; violations by computation |
| C130 | `Verif/Polyline/Model.lean`: `Line`, `fullLength`, `interpolated`, `equidistant`, `balancedCentre`, `scaled`, `trimmed` | induction over the walk along the segments; sums |
| C131 | `Verif/Polyline/Convex.lean`: `isConvex`, `isClockwise`, `segmentNormal`, `area` | invariant of the scan of turns; shoelace formula as a fan; violations by computation |
| C132 | `Verif/Polyline/Nearest.lean`: `closest`, `snapped`, `segmentXyz`, `firstIntersection`, `crossings` | folds over segments; refinement to lines meeting (C88) |
| C133 | `Verif/Polyline/Nearest.lean`: `normalised`, `denormalised` | centre strictly inside; a half line from inside meets the edge, by monotone slopes; trigonometry |
| C134 | `Verif/Polyline/Model.lean`: `regularPolygon` | trigonometric identities for chords; C131 |
| C135 | `Verif/PolySet/Model.lean`: `boolArrayFormat`, `closedNode`, `getBoolArray` | pointwise over the list of flags |
| C136 | `Verif/PolySet/Model.lean`: `combine`, `store`, `load`, `separate` | induction over the polylines: cutting concatenated points by their counts (`separate_append`) |
| C137 | `Verif/PolySet/Model.lean`: `loadPatch`, `cached` | induction over the patches: once an array is held the stored one is not used |
| C138 | `Verif/PolySet/Model.lean`: `combineStep`, `afterCombine`, `fromPolylines` | closed form of the loop; witness |
| C139 | `Verif/PolySet/Model.lean`: `charismaStep`, `fromCharisma`, `toCharisma` | induction over the sticks with a loop invariant on coordinates, counts and current stick |
| C140 | `Verif/PolySet/Model.lean`: `irapStep`, `irapStepIn`, `fromIrap`, `toIrap`; `Verif/Lines/Model.lean`: `readLines` | induction over the lines; C62 |
| C141 | `Verif/Surface/Model.lean`: `fromIrregularMesh`, `fromTornMesh`, `columnFromTriangleIndex` | lookup in nested lists; barycentric weights |
| C142 | `Verif/Surface/Model.lean`: `fromSparseMesh` | place in the list of defined nodes; cases on the four corners |
| C143 | `Verif/Surface/Model.lean`: `cellTris`, `cellPoints`, `cellAxisPolarity`, `faceFromTriangleIndex` | cases on faces; C146 for many cells; negation for the method of the patch |
| C144 | `Verif/Surface/Model.lean`: `trimmedPatch`, `compress` | renumbering through the list of points kept |
| C145 | `Verif/Surface/Model.lean`: `splitSurface` | as C144, twice |
| C146 | `Verif/Surface/Model.lean`: `composite`, `surfaceIndexFor`, `Surf` | induction over patches; invariant over histories; negations by histories of three calls |
| C147 | `Verif/Surface/Model.lean`, `Sail.lean`: `sailTris`, `sailPoints` | lookup in lists of growing length; C95 |
| C148 | `Verif/Surface/Model.lean`: `horizontalPlane` | barycentric weights |
| C149 | `Verif/Surface/Model.lean`: `rescaleSurface` | induction over patches; negation for points not loaded |
| C150 | `Verif/Surface/Model.lean`: `readTsurf` | induction over lines |
| C151 | `Verif/Organize/Model.lean`: `create`, `tryReuse`, `featCls`, `horizonCls` … | induction over the parts of the class; content of features as a specification; negations for all states of the model |
| C152 | `Verif/Organize/Model.lean`: `eqvFeat`, `eqvInterp`, `eqvHorizon`, `eqvFault` … | cases on the tests; dictionaries as functions; negations by witnesses |
| C153 | `Verif/Organize/Model.lean`: `featNode`, `loadFeat`, `writeHorizon`, `loadHorizon` … | looking up of children by tag in the tree written; negations by witnesses |
| C154 | `Verif/Organize/Column.lean`: `setUnits`, `setContacts`, `addRanks`, `writeRank`, `loadRank`, `writeColumn`, `loadColumn` | induction over lists; stability of sorting; as C153 for storing |
| C155 | `Verif/Frame/Model.lean`: `intervalForMd` | increasing nodes; search over nodes characterised by the interval which contains the depth |
| C156 | `Verif/Frame/Model.lean`: `contribBetween`, `cellContrib`, `contributions` | overlap of two segments as the specification; induction over the cells; telescoping sums |
| C157 | `Verif/Frame/Model.lean`: `cellActive`, `cellRadius`, `cellOpen`, `cellKh`, `cellSkin` | folds over contributions as sums over all intervals of the frame; invariant for the dominant interval; negations by witnesses |
| C158 | `Verif/ArrayFile/Model.lean`: `writeText`, `fmtReal`, `loadAscii`, `guess`, `stripComments` | text as white space and words in turns; splitting into lines and words by induction; decimal formatting and reading of rationals; negation for all arrays |
| C159 | `Verif/ArrayFile/Model.lean`: `numbers`, `afterWords` | words left after the first ones; negation for all arrays |
| C160 | `Verif/ArrayFile/Model.lean`: `loadFile`, `copyUsable`, `rewrite`, `bytes` | invariant on copies more recent than the text, induction over histories; negations by witnesses |
| C161 | `Verif/RegGrid/Model.lean`: `pointRaw`, `cornerPoints`, `centrePoint`, `calls`, `slicePoint` | invariant on the arrays kept, induction over calls; loops by induction |
| C162 | `Verif/RegGrid/Model.lean`: `centrePoint`, `columnCentre` | as C161 |
| C163 | `Verif/RegGrid/Model.lean`: `xyzBox`, `outerCorners` | least and greatest of a list; monotone in each index; negation for all origins |
| C164 | `Verif/RegGrid/Model.lean`: `findCell` | floors; negation for all origins |
| C165 | `Verif/RegGrid/Model.lean`: `storeLattice`, `loadLattice`, `loadLengths` | computation; square roots of sums of squares; negations for all grids |
| C166 | `Verif/RegGrid/Model.lean`: `gridCrs`, `shifted`; `Verif/Crs/Model.lean` | translation by offsets; negations for all origins, one for a quarter turn |
| C167 | `Verif/RegGrid/Model.lean`: `create`, `ofMesh` | computation; negation for all meshes |
| C168 | `Verif/RegGrid/Model.lean`: `volume`, `axialLengths` | determinant of the matrix of products; negation by a witness |
| C169 | `Verif/Mesh/Model.lean`: `make`, `fullArray`, `regularPts` | cases of the arguments; evenly spaced numbers |
| C170 | `Verif/Mesh/Model.lean`: `store`, `load`, `steps` | loading is monotone in what is stored; induction over histories |
| C171 | `Verif/Mesh/Model.lean`: `columnArgs` | C169 and computation |
| C172 | `Verif/Mesh/Model.lean`: `readMesh`, `zmapRows`, `readRmsHeader`, `values` | induction over lines and fields |
| C173 | `Verif/Mesh/Model.lean`: `ofFile`, `fileLat` | computation; negations for all files |
| C174 | `Verif/Marker/Model.lean`: `storeFrame`, `loadFrame`, `frameMarker`, `loadMarker` | what is read from each tree; induction over markers |
| C175 | `Verif/Marker/Model.lean`: `fromDataframe`, `rowMarkers`, `rowInterp`, `createInterp` | one row adds at most a feature and an interpretation of that title; induction over rows |
| C176 | `Verif/Marker/Model.lean`: `dataframe`, `fromDataframe` | C175 for the table of a frame; negations for all models |
| C177 | `Verif/Marker/Model.lean`: `storeWFrame`, `loadWFrame`, `storeDatum`, `loadDatum`, `eqvDatum` | what is read from each tree |
| C178 | `Verif/Stencil/Model.lean`: `newPattern`, `visits`, `rowV`, `constantPattern`, `linearPattern` | distance on the lattice by a formula, shown to be the least number of sides by induction; each node of the disc is in one row at one place |
| C179 | `Verif/Stencil/Model.lean`: `appliedAt`, `simpleAt`, `apply` | induction over nodes visited; the border is even and at least as wide as the stencil |
| C180 | `Verif/Stencil/Model.lean`: `nanmeanAt`, `apply` | induction over nodes visited; the disc is the same turned by half a circle, so odd functions sum to nought |
| C181 | `Verif/Wellspec/Model.lean`: `getWellPointers` | induction over lines marked with a keyword; grouping by name |
| C182 | `Verif/Wellspec/Model.lean`: `dateAt`, `dateList`, `dateWells` | dates of places in ascending order; the violation by a witness |
| C183 | `Verif/Wellspec/Model.lean`: `readTable`, `rowLoop`, `readRow` | an inductive layout of lines, and induction over the number of lines left |
| C184 | `Verif/Wellspec/Model.lean`: `finish`, `dropDuplicates`, `finalCell`, `loadWellspecs` | row by row; duplicates by what follows a row |
| C185 | `Verif/Multi/Model.lean`: `multiprocess`, `recombine`, `copyAll`, `tries`, `sortUuids`, `ordering` | a sorted permutation by distinct numbers is unique; induction over workers and objects |
| C186 | `Verif/Multi/Model.lean`: `multiprocess` as a list of actions | crash points as prefixes of the list |
| C187 | `Verif/Defined/Model.lean`: `setDefined`, `baseState`, `nanMask`, `dotMask`, `nullified`, `updateCells`, `cellQuery`, `pillarQuery` | case analysis of the call; each pillar whole or missing after completion or nullification |
| C188 | `Verif/Defined/Model.lean`: `infill`, `gaps`, `linear`, `infilled` | invariant of the loop over the gaps: neighbouring defined points bound each gap |
| C189 | `Verif/Defined/Model.lean`: `completeAll`, `fillHoles`, `holesPass`, `fillSurround`, `surround`, `coastal` | only missing pillars are written in each stage; induction over passes and rows |
| C190 | `Verif/Defined/Model.lean`: `cellQuery`, `pillarQuery`, `allCellsQuery`, `allPillarsQuery` | invariant of the caches under every call, by induction over the sequence |
| C191 | `Verif/RelPerm/Model.lean`: `newRel`, `errorCheck`, `inferred`, `comboOf`, `monotonic`, `inRange`, `missing` | equivalence of the checks with `Good` of `Spec.lean`, by cases of layouts and phases |
| C192 | `Verif/RelPerm/Model.lean`: `interpolatePoint`, `pairs`, `interp` | induction over the sorted pairs |
| C193 | `Verif/RelPerm/Model.lean`: `toText`, `headings`, `readText`, `dataOf`, `blocks`, `makeFrame`, `store`, `reload` | words of lines are read back; induction over the tables of a file |
| C194 | `Verif/DataTable/Model.lean`: `new`, `load`, `fresh`, `valuesOf`, `setMesh`, `createLookup`, `writeColumns`, `writeUnits` | invariant of identifiers and growth of the model, by induction over what is written |
| C195 | `Verif/DataTable/Model.lean`: `load`, `columnUom`, `write`, `createLookup` | each violation is proved for all inputs |
| C196 | `Verif/DataTable/Model.lean`: `freshTimed`, `loadTimed`, `writeTimed`, `framesIn`, `frameForTitle` | relation of meshes to what was written, by induction |
| C197 | `Verif/FaultTable/Model.lean`: `content`, `step`, `inner`, `start`, `close`, `load` | invariant of the loop between tables, by induction over tables and lines |
| C198 | `Verif/FaultTable/Model.lean`: `textOf`, `load`, with `exportLines` of `Verif/Gcs/Trans.lean` | words of written lines are read back; composed with C197 and C54 |
| C199 | `Verif/FindFaults/Model.lean`: `split`, `number`, `merge`, `faultIds`, `findFaults` | invariant of numbering by rows and of merging by pillars: equal numbers just for joined faces |
| C200 | `Verif/FindFaults/Model.lean`: `throwJ`, `throwI`, `edgeThrow`, `edgeThrows`, `edgeThrowsResqml` | algebra over corners; least and greatest of lists by induction |
| C201 | `Verif/Aps/Model.lean`: `attributeStep`, `makeAttributes`, `keys`, `items`, `size` | induction over parts; an attribute is the first part with the key |
| C202 | `Verif/Aps/Model.lean`: `underscored`, `suffix`, `makeKey` | numbers are read back from the end of keys |
| C203 | `Verif/GridCache/Model.lean`: `matching`, `find`, `defaultRoot`, `resolve`, `rootFor`, `grid`, `addGrid`, `step`, `run` | invariant over histories: parts and objects are only added at the end, the root once found stays |
| C204 | `Verif/PropKind/Model.lean`: `equivalent`, `stored`, `tryReuse`, `create`, `establishZone`, `run` | induction over histories; the first equivalent kind stays the first |
| C205 | `Verif/Ensemble/Model.lean`: `force`, `mapSeries`, `matchGrid`, `mapGrids`, `resolve`, `addProps`, `first`, `later`, `loop`, `gather`; `Spec.lean`: `Gathered`, `Different`, `Consistent`, `Fits`, `Placed` | induction over cases, with what is known of the map of uuids as invariant |
| C206 | `Verif/GeoTime/Model.lean`: `fromYearList`, `fromList`, `load`, `createXml`, `timeframeOf`, `timeStr`, `timestamp`, `indexForYear`, `indexForLabel`, `isEquivalent`, `selected`, `merge`; specification in `Props.lean`: `OldestFirst`, `Proper` | induction over times; uniqueness of sorted permutations |
| C207 | `Verif/GridKind/Model.lean`: `gridFlavour`, `anyGrid`, `readIjk`, `readUnstructured`, `writeIjk`, `writeGrid`, `writeRegular`, `writeUnstructured`; specification in `Props.lean`: `Stands` | cases over classes, options and xml |

Cannot be expressed in this model: performance; behaviour of h5py, lxml and zipfile themselves;
numerical accuracy of floating point; plotting and file system layout.

## Which parts of the code are modelled

Functions of `/repo/resqpy` cited by definitions of the model (955 of 2335).  A function is listed if any part of it is modelled; the comment at each
definition says what is left out.

* `crs.py` (Crs, PolySet, Polyline, RegGrid): 17 of 21 functions: `Crs.resqml_type`, `Crs.__init__`, `Crs.set_rotation_matrices`, `Crs.is_right_handed_xy`, `Crs.is_right_handed_xyz`, `Crs.global_to_local`, `Crs.global_to_local_array`, `Crs.local_to_global`, `Crs.local_to_global_array`, `Crs.has_same_epsg_code`, `Crs.is_equivalent`, `Crs.convert_to`, `Crs.convert_array_to`, `Crs.convert_from`, `switch_axes`, `switch_axes_array`, `_matching_extra_metadata`
* `derived_model/_add_faults.py` (AddFaults): 4 of 11 functions: `_fault_from_pillar_list`, `_pillar_vector`, `_processs_foursome`, `_process_full_pillar_list_dict`
* `derived_model/_coarsened_grid.py` (Refine): 1 of 3 functions: `coarsened_grid`
* `derived_model/_drape_to_surface.py` (Derived): 2 of 2 functions: `drape_to_surface`, `_shift_by_translation_vectors`
* `derived_model/_extract_box.py` (Extract): 7 of 9 functions: `extract_box`, `_array_box`, `_local_pillar_index`, `_cols_for_pillar`, `_inherit_k_gaps`, `_extract_inactive_cell_mask`, `_process_split_pillars`
* `derived_model/_fault_throw_scaling.py` (Derived): 3 of 6 functions: `fault_throw_scaling`, `_set_offsets_based_on_scaling_factor`, `_neighbourly_adjustment`
* `derived_model/_gather_ensemble.py` (Ensemble): 1 of 1 functions: `gather_ensemble`
* `derived_model/_interpolated_grid.py` (Derived): 6 of 7 functions: `interpolated_grid`, `_determine_work_from_pillars`, `_inherit_basics`, `_interpolate_points_cached_from_pillars`, `_interpolate_points_cached_from_cp`, `_close_vertical_voids`
* `derived_model/_local_depth_adjustment.py` (Derived): 2 of 2 functions: `local_depth_adjustment`, `_decayed_shift`
* `derived_model/_refined_grid.py` (Refine): 3 of 6 functions: `refined_grid`, `_refined_faulted_grid`, `_refined_unfaulted_grid`
* `derived_model/_unsplit_grid.py` (Derived): 1 of 1 functions: `unsplit_grid`
* `derived_model/_zonal_grid.py` (Derived): 4 of 8 functions: `zonal_grid`, `_set_inactive_cell_mask`, `_process_geometry`, `_set_or_check_k_min_max`
* `derived_model/_zone_layer_ranges_from_array.py` (Zones): 2 of 2 functions: `zone_layer_ranges_from_array`, `_dominant_zone`
* `fault/_gcs_functions.py` (Gcs, Pinchout): 8 of 13 functions: `pinchout_connection_set`, `k_gap_connection_set`, `cell_set_skin_connection_set`, `grid_columns_property_from_gcs_property`, `combined_tr_mult_from_gcs_mults`, `zero_base_cell_indices_in_faces_df`, `standardize_face_indicator_in_faces_df`, `remove_external_faces_from_faces_df`
* `fault/_grid_connection_set.py` (FaultTable, Gcs): 29 of 55 functions: `GridConnectionSet.__init__`, `GridConnectionSet.from_faces_indices`, `GridConnectionSet.from_gcs_uuid_list`, `GridConnectionSet.set_pairs_from_face_masks`, `GridConnectionSet.set_pairs_from_faces_df`, `GridConnectionSet.write_hdf5_and_create_xml_for_new_properties`, `GridConnectionSet.append`, `GridConnectionSet.single_feature`, `GridConnectionSet.filtered_by_layer_range`, `GridConnectionSet.filtered_by_cell_mask`, `GridConnectionSet.clean_feature_list`, `GridConnectionSet.cache_arrays`, `GridConnectionSet.feature_index_and_uuid_for_fault_name`, `GridConnectionSet.feature_name_for_feature_index`, `GridConnectionSet.indices_for_feature_index`, `GridConnectionSet.list_of_cell_face_pairs_for_feature_index`, `GridConnectionSet.write_simulator`, `GridConnectionSet.write_simulator.write_nexus_header_lines`, `GridConnectionSet.write_simulator.write_row`, `GridConnectionSet.tr_property_array`, `GridConnectionSet.inherit_features`, `GridConnectionSet.inherit_features.sorted_paired_cell_face_index_position`, `GridConnectionSet.inherit_features.find_in_sorted`, `GridConnectionSet.inherit_features.find_in_sorted.fis`, `GridConnectionSet.compact_indices`, `GridConnectionSet._set_pairs_from_faces_df_for_named_fault`, `GridConnectionSet.grid_face_arrays`, `_copy_organisation_objects`, `_sort_and_remove_duplicates`
* `grid/_connection_sets.py` (Gcs): 1 of 3 functions: `pinchout_connection_set`
* `grid/_create_grid_xml.py` (GridKind): 1 of 7 functions: `_create_grid_xml`
* `grid/_defined_geometry.py` (Defined): 6 of 13 functions: `pillar_geometry_is_defined`, `set_geometry_is_defined`, `__handle_areal_dots`, `__infill_partial_pillar`, `__create_surround_masks`, `__fill_holes`
* `grid/_extract_functions.py` (CpGrid): 1 of 19 functions: `extract_k_gaps`
* `grid/_face_functions.py` (Pillars): 2 of 11 functions: `is_split_column_face`, `split_column_faces`
* `grid/_faults.py` (FindFaults): 3 of 3 functions: `find_faults`, `fault_throws`, `fault_throws_per_edge_per_column`
* `grid/_grid.py` (Blocking, CpGrid, Derived, Extract, Gcs, GridKind, Refine, Unstruct): 9 of 115 functions: `Grid.nk_plus_k_gaps`, `Grid.__init__`, `Grid._load_from_xml`, `Grid.natural_cell_index`, `Grid.natural_cell_indices`, `Grid.denaturalized_cell_index`, `Grid._set_k_raw_index_array`, `Grid.off_handed`, `Grid.create_xml`
* `grid/_grid_types.py` (GridKind): 2 of 3 functions: `grid_flavour`, `any_grid`
* `grid/_pillars.py` (Pillars): 2 of 5 functions: `create_column_pillar_mapping`, `pillar_foursome`
* `grid/_pixel_maps.py` (Polygon): 1 of 2 functions: `pixel_map_for_split_horizon_points`
* `grid/_points_functions.py` (CpGrid, Derived, Refine, RegGrid): 5 of 26 functions: `point`, `unsplit_points_ref`, `corner_points`, `corner_points.one_cell_cp`, `interpolated_points`
* `grid/_regular_grid.py` (Derived, GridKind, RegGrid, Transmit): 20 of 24 functions: `RegularGrid.__init__`, `RegularGrid._load_regular_grid_from_xml`, `RegularGrid._load_regular_grid_from_xml.get_point3d`, `RegularGrid.make_regular_points_cached`, `RegularGrid.axial_lengths_kji`, `RegularGrid.point_raw`, `RegularGrid.half_cell_transmissibility`, `RegularGrid.corner_points`, `RegularGrid.centre_point`, `RegularGrid.aligned_column_centres`, `RegularGrid.volume`, `RegularGrid.thickness`, `RegularGrid.xyz_box`, `RegularGrid.find_cell_for_point_xy`, `RegularGrid.create_xml`, `RegularGrid._set_is_aligned`, `RegularGrid.aligned_dxyz`, `RegularGrid.slice_points`, `RegularGrid._add_geom_points_xml`, `RegularGrid._add_geom_points_xml.make_axial_offset`
* `grid/_transmissibility.py` (Transmit): 6 of 6 functions: `transmissibility`, `__faces_per_cell_multiplier`, `__set_i_transmissibility`, `__set_j_transmissibility`, `__set_k_transmissibility`, `half_cell_transmissibility`
* `grid_surface/_find_faces.py` (FindFaces): 11 of 23 functions: `find_faces_to_represent_surface_regular_optimised`, `bisector_from_faces`, `bisector_from_face_indices`, `column_bisector_from_face_indices`, `column_bisector_from_faces`, `shadow_from_face_indices`, `shadow_from_faces`, `get_boundary`, `_fill_bisector`, `_shallow_or_curtain`, `get_boundary_from_indices`
* `lines/_common.py` (PolySet): 1 of 8 functions: `load_hdf5_array`
* `lines/_polyline.py` (PolySet, Polyline): 26 of 32 functions: `Polyline.__init__`, `Polyline.from_scaled_polyline`, `Polyline.from_trimmed_polyline`, `Polyline.for_regular_polygon`, `Polyline.convex_hull_from_closed_polyline`, `Polyline.is_convex`, `Polyline.is_clockwise`, `Polyline.point_is_inside_xy`, `Polyline.points_are_inside_xy`, `Polyline.segment_length`, `Polyline.segment_midpoint`, `Polyline.segment_normal`, `Polyline.full_length`, `Polyline.interpolated_point`, `Polyline.equidistant_points`, `Polyline.balanced_centre`, `Polyline.first_line_intersection`, `Polyline.closest_segment_and_distance_to_point_xy`, `Polyline.point_snapped_to_segment_xy`, `Polyline.segment_xyz_from_xy`, `Polyline.xy_crossings`, `Polyline.normalised_xy`, `Polyline.denormalised_xy`, `Polyline.tangent_vectors`, `Polyline.area`, `Polyline._successor`
* `lines/_polyline_set.py` (PolySet): 12 of 15 functions: `PolylineSet.__init__`, `PolylineSet._load_from_xml`, `PolylineSet._set_from_irap`, `PolylineSet._set_from_charisma`, `PolylineSet.create_xml`, `PolylineSet.write_hdf5`, `PolylineSet.get_bool_array`, `PolylineSet.convert_to_polylines`, `PolylineSet.combine_polylines`, `PolylineSet.bool_array_format`, `PolylineSet.convert_to_irap`, `PolylineSet.convert_to_charisma`
* `model/_catalogue.py` (Catalogue, GridCache, Marker, Query): 20 of 49 functions: `_parts`, `_part`, `_obj_part`, `_list_of_parts`, `_part_for_uuid`, `_parts_list_filtered_by_related_uuid`, `_uuid_for_part`, `_citation_title_for_part`, `_title_for_root`, `_sort_parts_list_by_timestamp`, `_as_graph`, `_filtered_by_epc_subdir`, `_filtered_by_title`, `_filtered_by_metadata`, `_filtered_by_extra`, `_sorted_parts_list`, `_uuids_as_int_related_to_uuid`, `_uuids_as_int_referenced_by_uuid`, `_uuids_as_int_referencing_uuid`, `_uuids_as_int_softly_related_to_uuid`
* `model/_forestry.py` (Catalogue, Consolidation, Ensemble): 11 of 32 functions: `_add_to_object_parts`, `_remove_part_from_main_tree`, `_add_uuid_relations`, `_add_part`, `_remove_part`, `_del_uuid_relations`, `_copy_part_from_other_model`, `_set_realization_index_node_if_required`, `_copy_referenced_parts`, `_copy_all_parts_from_other_model`, `_del_uuid_to_part`
* `model/_grids.py` (GridCache): 4 of 6 functions: `_root_for_ijk_grid`, `_resolve_grid_root`, `_grid`, `_add_grid`
* `model/_hdf5.py` (Hdf5, PolySet): 2 of 21 functions: `_h5_array_element`, `_h5_array_element.reshaped_index`
* `model/_model.py` (Catalogue, Ensemble, GridCache): 2 of 116 functions: `Model.initialize`, `Model.copy_part_from_other_model`
* `model/_xml.py` (Catalogue, Marker, Organize): 6 of 21 functions: `_change_uuid_in_supporting_representation_reference`, `_create_ref_node`, `_create_citation`, `_create_crs_reference`, `_create_reciprocal_relationship`, `_create_reciprocal_relationship.id_str`
* `multi_processing/_multiprocessing.py` (Multi): 1 of 2 functions: `function_multiprocessing`
* `olio/base.py` (DataTable, Organize, PolySet, PropKind): 4 of 14 functions: `BaseResqpy.__init__`, `BaseResqpy.try_reuse`, `BaseResqpy.create_xml`, `BaseResqpy.__eq__`
* `olio/box_utilities.py` (Box): 16 of 17 functions: `extent_of_box`, `volume_of_box`, `central_cell`, `spaced_string_iijjkk1_for_box_kji0`, `box_kji0_from_words_iijjkk1`, `cell_in_box`, `valid_box`, `single_cell_box`, `full_extent_box0`, `union`, `parent_cell_from_local_box_cell`, `local_box_cell_from_parent_cell`, `boxes_overlap`, `overlapping_boxes`, `trim_box_by_box_returning_new_mask`, `trim_box_to_mask_returning_new_mask`
* `olio/consolidation.py` (Consolidation, Ensemble, Multi): 7 of 10 functions: `Consolidation.equivalent_uuid_int_for_part`, `Consolidation.force_uuid_equivalence`, `Consolidation.force_uuid_int_equivalence`, `Consolidation.force_part_equivalence`, `Consolidation.check_map_integrity`, `_ordering`, `sort_uuids_list`
* `olio/dataframe.py` (DataTable): 8 of 12 functions: `DataFrame.__init__`, `DataFrame.column_uom`, `DataFrame.write_hdf5_and_create_xml`, `DataFrame._set_mesh_from_df`, `TimeTable.__init__`, `TimeTable.write_hdf5_and_create_xml`, `dataframe_parts_in_model`, `dataframe_for_title`
* `olio/factors.py` (Factors): 5 of 5 functions: `factorize`, `combinatorial`, `all_factors_from_primes`, `all_factors`, `remove_subset`
* `olio/fine_coarse.py` (FineCoarse, Upscale): 20 of 32 functions: `FineCoarse.__init__`, `FineCoarse.assert_valid`, `FineCoarse.ratio`, `FineCoarse.coarse_for_fine_kji0`, `FineCoarse.coarse_for_fine_axial`, `FineCoarse.coarse_for_fine_axial_vector`, `FineCoarse.fine_base_for_coarse_axial`, `FineCoarse.fine_box_for_coarse`, `FineCoarse.proportion`, `FineCoarse.proportions_for_axis`, `FineCoarse.interpolation`, `FineCoarse.set_constant_ratio`, `FineCoarse.set_ratio_vector`, `FineCoarse.set_equal_proportions`, `FineCoarse.set_proportions_list_of_vectors`, `FineCoarse.fine_for_coarse_natural_column_index`, `FineCoarse.fine_for_coarse_natural_pillar_index`, `FineCoarse._assert_extents_valid`, `FineCoarse._set_fine_to_coarse_mapping`, `tartan_refinement`
* `olio/grid_functions.py` (GridFns, Pillars): 7 of 15 functions: `infill_block_geometry`, `__clean_up_tiny_values`, `__snap_to_top_and_base`, `resequence_nexus_corp`, `translate_corp`, `columns_to_nearest_split_face`, `left_right_foursome`
* `olio/intersection.py` (Geom): 14 of 15 functions: `line_plane_intersect`, `line_triangle_intersect`, `line_triangles_intersects`, `intersects_indices`, `line_set_triangles_intersects`, `poly_line_triangles_intersects`, `distilled_intersects`, `last_intersects`, `triangles_for_line`, `lines_for_triangle`, `poly_line_triangles_first_intersect`, `line_line_intersect`, `point_projected_to_line_2d`, `point_snapped_to_line_segment_2d`
* `olio/keyword_files.py` (ArrayFile, Keywords, Wellspec): 10 of 15 functions: `find_keyword`, `skip_blank_lines_and_comments`, `skip_comments`, `split_trailing_comment`, `strip_trailing_comment`, `find_keyword_without_passing`, `find_keyword_with_copy`, `find_keyword_pair`, `specific_keyword_next`, `guess_comment_char`
* `olio/load_data.py` (ArrayFile): 3 of 4 functions: `file_exists`, `load_array_from_file`, `load_array_from_ascii_file`
* `olio/point_inclusion.py` (Polygon): 4 of 5 functions: `pip_cn`, `pip_wn`, `pip_array_cn`, `scan`
* `olio/read_nexus_fault.py` (FaultTable): 2 of 3 functions: `load_nexus_fault_mult_table_from_list`, `load_nexus_fault_mult_table_from_list.is_number`
* `olio/relperm.py` (RelPerm): 10 of 11 functions: `RelPerm.__init__`, `RelPerm.__error_check`, `RelPerm.__water_oil_error_check`, `RelPerm.__gas_oil_error_check`, `RelPerm.__gas_water_error_check`, `RelPerm.__no_phase_combo_error_check`, `RelPerm.interpolate_point`, `RelPerm.df_to_text`, `RelPerm.write_hdf5_and_create_xml`, `text_to_relperm_dict`
* `olio/simple_lines.py` (Lines): 3 of 7 functions: `read_lines`, `polygon_line`, `duplicate_vertices_removed`
* `olio/transmission.py` (Transmit): 12 of 12 functions: `half_cell_t`, `half_cell_t_regular`, `half_cell_t_irregular`, `half_cell_t_vertical_prism`, `half_cell_t_2d_triangular_precursor`, `fault_connection_set`, `fault_connection_set.all_nan`, `fault_connection_set.juxtapose`, `fault_connection_set.juxtapose.pillar_flavour`, `fault_connection_set.juxtapose.basic_fr`, `fault_connection_set.juxtapose.fractional_area`, `projected_tri_area`
* `olio/triangulation.py` (Delaunay, Plane, TriEdges): 12 of 32 functions: `_dt_simple`, `_dt_simple.flip`, `ccc`, `edges`, `triangles_using_point`, `triangles_using_edge`, `triangles_using_edges`, `rim_edges`, `internal_edges`, `rims`, `_find_unused`, `_first_false`
* `olio/uuid.py` (PropColl, Xml): 3 of 12 functions: `uuid_from_string`, `matching_uuids`, `uuid_in_list`
* `olio/vector_utilities.py` (Blocking, Crs, Delaunay, Geom, Plane, Polyline, RegGrid, Rotate, Surface, Transmit, Wells): 61 of 91 functions: `radians_from_degrees`, `degrees_from_radians`, `unit_vector`, `unit_vectors`, `unit_vector_from_azimuth`, `azimuth`, `azimuths`, `inclination`, `dot_product`, `cross_product`, `naive_length`, `naive_lengths`, `naive_2d_length`, `naive_2d_lengths`, `radians_difference`, `rotation_matrix_3d_axial`, `rotation_3d_matrix`, `reverse_rotation_3d_matrix`, `rotate_vector`, `rotate_array`, `rotate_xyz_array_around_z_axis`, `unit_vector_from_azimuth_and_inclination`, `tilt_3d_matrix`, `rotation_matrix_3d_vector`, `tilt_points`, `project_points_onto_plane`, `determinant`, `clockwise`, `clockwise_triangles`, `in_triangle`, `in_triangle_edged`, `points_in_triangles`, `point_in_polygon`, `point_in_triangle`, `points_in_polygon`, `points_in_triangle`, `mesh_points_in_triangle`, `points_in_polygons`, `points_in_triangles_njit`, `points_in_triangles_aligned`, `vertical_intercept_nan`, `vertical_intercept_nan_yz`, `points_in_triangles_aligned_optimised_serial`, `points_in_triangles_aligned_optimised`, `points_in_triangles_aligned_unified`, `_points_in_triangles_aligned_optimised_batch`, `_points_in_triangles_aligned_unified_batch`, `triangle_normal_vector`, `triangle_normal_vector_numba`, `in_circumcircle`, `point_distance_to_line_2d`, `point_distance_to_line_segment_2d`, `is_obtuse_2d`, `isclose`, `point_distance_sqr_to_points_projected`, `nearest_point_projected`, `area_of_triangle`, `area_of_triangles`, `clockwise_sorted_indices`, `xy_sorted`, `_projected_xyz_axes`
* `olio/volume.py` (Volume): 7 of 7 functions: `_pyr`, `pyramid_volume`, `tetrahedron_volume`, `tetra_cell_volume`, `tetra_volumes_slow`, `tetra_volumes`, `tetra_volumes.pyrs`
* `olio/wellspec_keywords.py` (Wellspec): 6 of 14 functions: `load_wellspecs`, `_prepare_dates_list`, `get_well_pointers`, `get_well_data`, `get_well_data.stat_tranformation`, `get_all_well_data`
* `olio/write_data.py` (ArrayFile): 1 of 2 functions: `write_array_to_ascii_file`
* `olio/write_hdf5.py` (Hdf5): 2 of 9 functions: `H5Register.register_dataset`, `H5Register.write_fp`
* `olio/xml_et.py` (Crs, Organize, PolySet, Xml): 25 of 51 functions: `stripped_of_prefix`, `match`, `find_tag`, `find_tag_text`, `find_tag_bool`, `find_tag_int`, `find_tag_float`, `find_nested_tags`, `find_nested_tags_text`, `list_of_tag`, `uuid_in_part_name`, `part_name_for_object`, `rels_part_name_for_part`, `find_in_ordered_data`, `find_in_ordered_data.find_in_subset`, `bool_from_text`, `node_text`, `node_bool`, `node_int`, `node_float`, `xyz_handedness`, `citation_title_for_node`, `write_xml_node`, `load_metadata_from_xml`, `create_metadata_xml`
* `olio/zmap_reader.py` (Mesh): 3 of 6 functions: `read_zmap_header`, `read_roxar_header`, `read_mesh`
* `organize/_utils.py` (Organize): 4 of 7 functions: `equivalent_extra_metadata`, `extract_has_occurred_during`, `equivalent_chrono_pairs`, `create_xml_has_occurred_during`
* `organize/boundary_feature.py` (Organize): 2 of 3 functions: `BoundaryFeature.is_equivalent`, `BoundaryFeature.create_xml`
* `organize/boundary_feature_interpretation.py` (Organize): 4 of 4 functions: `BoundaryFeatureInterpretation.__init__`, `BoundaryFeatureInterpretation._load_from_xml`, `BoundaryFeatureInterpretation.is_equivalent`, `BoundaryFeatureInterpretation.create_xml`
* `organize/earth_model_interpretation.py` (Organize): 4 of 4 functions: `EarthModelInterpretation.__init__`, `EarthModelInterpretation._load_from_xml`, `EarthModelInterpretation.is_equivalent`, `EarthModelInterpretation.create_xml`
* `organize/fault_interpretation.py` (Marker, Organize): 5 of 5 functions: `FaultInterpretation.__init__`, `FaultInterpretation.feature_uuid`, `FaultInterpretation._load_from_xml`, `FaultInterpretation.is_equivalent`, `FaultInterpretation.create_xml`
* `organize/fluid_boundary_feature.py` (Organize): 3 of 4 functions: `FluidBoundaryFeature.is_equivalent`, `FluidBoundaryFeature._load_from_xml`, `FluidBoundaryFeature.create_xml`
* `organize/frontier_feature.py` (Organize): 1 of 3 functions: `FrontierFeature.is_equivalent`
* `organize/generic_interpretation.py` (Organize): 4 of 4 functions: `GenericInterpretation.__init__`, `GenericInterpretation._load_from_xml`, `GenericInterpretation.is_equivalent`, `GenericInterpretation.create_xml`
* `organize/genetic_boundary_feature.py` (Organize): 3 of 4 functions: `GeneticBoundaryFeature._load_from_xml`, `GeneticBoundaryFeature.is_equivalent`, `GeneticBoundaryFeature.create_xml`
* `organize/geobody_boundary_interpretation.py` (Organize): 4 of 4 functions: `GeobodyBoundaryInterpretation.__init__`, `GeobodyBoundaryInterpretation._load_from_xml`, `GeobodyBoundaryInterpretation.is_equivalent`, `GeobodyBoundaryInterpretation.create_xml`
* `organize/geobody_feature.py` (Organize): 1 of 3 functions: `GeobodyFeature.is_equivalent`
* `organize/geobody_interpretation.py` (Organize): 4 of 4 functions: `GeobodyInterpretation.__init__`, `GeobodyInterpretation._load_from_xml`, `GeobodyInterpretation.is_equivalent`, `GeobodyInterpretation.create_xml`
* `organize/geologic_unit_feature.py` (Organize): 1 of 3 functions: `GeologicUnitFeature.is_equivalent`
* `organize/horizon_interpretation.py` (Marker, Organize): 4 of 4 functions: `HorizonInterpretation.__init__`, `HorizonInterpretation._load_from_xml`, `HorizonInterpretation.is_equivalent`, `HorizonInterpretation.create_xml`
* `organize/organization_feature.py` (Organize): 3 of 4 functions: `OrganizationFeature.is_equivalent`, `OrganizationFeature._load_from_xml`, `OrganizationFeature.create_xml`
* `organize/tectonic_boundary_feature.py` (Organize): 3 of 4 functions: `TectonicBoundaryFeature._load_from_xml`, `TectonicBoundaryFeature.is_equivalent`, `TectonicBoundaryFeature.create_xml`
* `organize/wellbore_feature.py` (Organize): 1 of 3 functions: `WellboreFeature.is_equivalent`
* `organize/wellbore_interpretation.py` (Organize): 5 of 5 functions: `WellboreInterpretation.__init__`, `WellboreInterpretation._load_from_xml`, `WellboreInterpretation.iter_trajectories`, `WellboreInterpretation.is_equivalent`, `WellboreInterpretation.create_xml`
* `property/_collection_add_part.py` (PropColl): 4 of 18 functions: `_add_selected_part_from_other_dict`, `_check_not_none_and_not_equals`, `_check_citation_title`, `_check_categorical_and_lookup`
* `property/_collection_create_xml.py` (PropColl): 1 of 15 functions: `_create_xml_property_min_max`
* `property/_collection_get_attributes.py` (PropColl, Upscale): 20 of 50 functions: `_min_max_of_cached_array`, `_get_property_array_min_max_value`, `_get_property_array_min_max_const`, `_get_property_array_min_max_array`, `_get_property_array_min_max_array_discrete`, `_get_property_array_min_max_array_categorical`, `_get_property_array_min_max_array_continuous`, `_normalized_part_array_apply_discrete_cycle`, `_normalized_part_array_use_logarithm`, `_normalized_part_array_fix_zero_at`, `_realizations_array_ref_get_r_extent`, `_normalized_part_array_get_minmax`, `_realizations_array_ref_fill_missing`, `_realizations_array_ref_not_fill_missing`, `_realizations_array_ref_get_shape_list`, `_realizations_array_ref_initial_checks`, `_time_array_ref_initial_checks`, `_time_array_ref_fill_missing`, `_time_array_ref_not_fill_missing`, `_facet_array_ref_checks`
* `property/_collection_support.py` (PropColl): 2 of 6 functions: `_set_support_and_model_from_collection`, `_confirm_support_and_model_from_collection`
* `property/attribute_property_set.py` (Aps): 7 of 41 functions: `AttributePropertySet.__init__`, `AttributePropertySet.keys`, `AttributePropertySet.items`, `AttributePropertySet._key`, `AttributePropertySet._make_attributes`, `AttributePropertySet.__len__`, `make_aps_key`
* `property/grid_property_collection.py` (Decoarsen, PropColl, Refine, Upscale): 14 of 34 functions: `GridPropertyCollection.__init__`, `GridPropertyCollection.decoarsen_imported_list`, `_array_box`, `_coarsening_sample`, `_coarsening_sum`, `_coarsening_weighted_mean`, `_coarsening_weighted_mean_singlecell`, `_add_to_imported`, `_extend_imported_with_coarsening`, `_extend_imported_coarsen_rock_volume`, `_extend_imported_no_coarsening`, `_extend_imported_no_coarsening_single`, `_extend_imported_no_coarsening_single_resampling`, `_extend_imported_no_coarsening_single_resampling_length`
* `property/property_collection.py` (PropColl, Refine): 38 of 111 functions: `PropertyCollection.__init__`, `PropertyCollection.remove_part_from_dict`, `PropertyCollection.inherit_parts_from_other_collection`, `PropertyCollection.inherit_parts_selectively_from_other_collection`, `PropertyCollection.inherit_similar_parts_for_time_series_from_other_collection`, `PropertyCollection.inherit_similar_parts_for_facets_from_other_collection`, `PropertyCollection.inherit_similar_parts_for_realizations_from_other_collection`, `PropertyCollection.singleton`, `PropertyCollection.element_for_part`, `PropertyCollection.unique_element_list`, `PropertyCollection.null_value_for_part`, `PropertyCollection.all_continuous`, `PropertyCollection.all_discrete`, `PropertyCollection.establish_time_set_kind`, `PropertyCollection.time_set_kind`, `PropertyCollection.establish_has_single_property_kind`, `PropertyCollection.has_single_property_kind`, `PropertyCollection.establish_has_single_indexable_element`, `PropertyCollection.has_single_indexable_element`, `PropertyCollection.establish_has_multiple_realizations`, `PropertyCollection.has_multiple_realizations`, `PropertyCollection.establish_has_single_uom`, `PropertyCollection.has_single_uom`, `PropertyCollection.assign_realization_numbers`, `PropertyCollection.masked_array`, `PropertyCollection._masked_array_apply_inactive`, `PropertyCollection.cached_part_array_ref`, `PropertyCollection.facets_array_ref`, `PropertyCollection.realizations_array_ref`, `PropertyCollection.time_series_array_ref`, `PropertyCollection.combobulated_face_array`, `PropertyCollection.discombobulated_face_array`, `PropertyCollection.normalized_part_array`, `PropertyCollection.add_cached_array_to_imported_list`, `PropertyCollection.add_similar_to_imported_list`, `PropertyCollection.add_similar_to_imported_list.get_arg`, `PropertyCollection.write_hdf5_for_imported_list`, `PropertyCollection.write_hdf5_for_part`
* `property/property_common.py` (PropColl): 4 of 38 functions: `same_property_kind`, `selective_version_of_collection`, `reformat_column_edges_to_resqml_format`, `reformat_column_edges_from_resqml_format`
* `property/property_kind.py` (PropKind): 5 of 6 functions: `PropertyKind.__init__`, `PropertyKind._load_from_xml`, `PropertyKind.is_equivalent`, `PropertyKind.create_xml`, `establish_zone_property_kind`
* `property/string_lookup.py` (DataTable, Lookup): 10 of 12 functions: `StringLookup.__init__`, `StringLookup._load_from_xml`, `StringLookup.load_from_dict`, `StringLookup.set_list_from_dict_conditionally`, `StringLookup.set_string`, `StringLookup.get_string`, `StringLookup.get_list`, `StringLookup.length`, `StringLookup.get_index_for_string`, `StringLookup.create_xml`
* `rq_import/_grid_from_cp.py` (CpGrid): 18 of 31 functions: `_GridFromCp.__check_for_kgaps`, `_GridFromCp.__get_kgaps_details`, `_GridFromCp.__close_gaps`, `_GridFromCp.__get_k_reduced_cp_array`, `_GridFromCp.__get_k_reduced_cp_array_kgaps`, `_GridFromCp.__get_primary_pillar_ref`, `_GridFromCp.__get_extra_pillar_ref`, `_GridFromCp.__get_extra_pillar_ref_split`, `_GridFromCp.__append_single_pillar`, `_GridFromCp.__append_extra_pillars`, `_GridFromCp.__get_points_array`, `_GridFromCp.__get_points_array_split`, `_GridFromCp.__get_points_array_split_primary`, `_GridFromCp.__get_points_array_split_extras`, `_GridFromCp.__get_split_pillars_lists`, `_GridFromCp.__add_split_arrays_to_grid`, `_GridFromCp.__set_up_column_to_pillars_mapping`, `_GridFromCp.create_grid`
* `strata/_binary_contact_interpretation.py` (Organize): 3 of 3 functions: `BinaryContactInterpretation.__init__`, `BinaryContactInterpretation._load_from_xml`, `BinaryContactInterpretation.create_xml`
* `strata/_geologic_unit_interpretation.py` (Organize): 4 of 4 functions: `GeologicUnitInterpretation.__init__`, `GeologicUnitInterpretation._load_from_xml`, `GeologicUnitInterpretation.is_equivalent`, `GeologicUnitInterpretation.create_xml`
* `strata/_stratigraphic_column.py` (Organize): 7 of 7 functions: `StratigraphicColumn.__init__`, `StratigraphicColumn._load_from_xml`, `StratigraphicColumn.iter_ranks`, `StratigraphicColumn.add_rank`, `StratigraphicColumn._sort_ranks`, `StratigraphicColumn.is_equivalent`, `StratigraphicColumn.create_xml`
* `strata/_stratigraphic_column_rank.py` (Organize): 10 of 10 functions: `StratigraphicColumnRank.__init__`, `StratigraphicColumnRank._load_from_xml`, `StratigraphicColumnRank.set_units`, `StratigraphicColumnRank._sort_units`, `StratigraphicColumnRank._sort_contacts`, `StratigraphicColumnRank.set_contacts_from_horizons`, `StratigraphicColumnRank.iter_units`, `StratigraphicColumnRank.unit_for_unit_index`, `StratigraphicColumnRank.iter_contacts`, `StratigraphicColumnRank.create_xml`
* `strata/_stratigraphic_unit_feature.py` (Organize): 3 of 4 functions: `StratigraphicUnitFeature.is_equivalent`, `StratigraphicUnitFeature._load_from_xml`, `StratigraphicUnitFeature.create_xml`
* `strata/_stratigraphic_unit_interpretation.py` (Organize): 5 of 5 functions: `StratigraphicUnitInterpretation.__init__`, `StratigraphicUnitInterpretation.stratigraphic_unit_feature`, `StratigraphicUnitInterpretation._load_from_xml`, `StratigraphicUnitInterpretation.is_equivalent`, `StratigraphicUnitInterpretation.create_xml`
* `surface/_combined_surface.py` (Surface): 2 of 3 functions: `CombinedSurface.surface_index_for_triangle_index`, `CombinedSurface.triangles_and_points`
* `surface/_mesh.py` (DataTable, Mesh, RegGrid, TriMesh): 26 of 30 functions: `Mesh.__init__`, `Mesh.from_regular_grid_column_property`, `Mesh.is_big`, `Mesh.full_array_ref`, `Mesh.write_hdf5`, `Mesh.create_xml`, `Mesh.__load_from_arguments`, `Mesh.__regz_from_arguments`, `Mesh.__refz_from_arguments`, `Mesh.__regular_mesh_from_arguments`, `Mesh.__load_from_xyz_values`, `Mesh.__load_from_mesh_file`, `Mesh.__load_from_xml_regular`, `Mesh.__load_from_xml_refz`, `Mesh.__load_from_xml_basics`, `Mesh._load_from_xml`, `Mesh.__full_array_ref_explicit`, `Mesh.__full_array_ref_regular`, `Mesh.__full_array_ref_regz`, `Mesh.__full_array_ref_refz`, `Mesh.__create_xml_regular`, `Mesh.__create_xml_refandz`, `Mesh.__create_xml_regandz`, `Mesh.__create_xml_explicit`, `Mesh.__create_xml_basics`, `Mesh.__create_xml_add_parts`
* `surface/_surface.py` (Surface): 18 of 54 functions: `Surface.__init__`, `Surface.triangles_and_points`, `Surface.decache_triangles_and_points`, `Surface.set_to_split_surface`, `Surface.set_from_triangles_and_points`, `Surface.set_multi_patch_from_triangles_and_points`, `Surface.set_from_irregular_mesh`, `Surface.set_from_sparse_mesh`, `Surface.set_from_torn_mesh`, `Surface.set_to_single_cell_faces_from_corner_points`, `Surface.set_to_multi_cell_faces_from_corner_points`, `Surface.cell_axis_and_polarity_from_triangle_index`, `Surface.set_to_horizontal_plane`, `Surface.set_to_triangle`, `Surface.set_to_triangle_pair`, `Surface.set_to_sail`, `Surface.set_from_tsurf_file`, `Surface.vertical_rescale_points`
* `surface/_tri_mesh.py` (Stencil, TriMesh): 12 of 20 functions: `TriMesh.__init__`, `TriMesh.tji_tc_for_xy`, `TriMesh.tji_tc_for_xy_array`, `TriMesh.interpolated_z`, `TriMesh.tri_nodes_for_tji`, `TriMesh.tri_nodes_for_tji_array`, `TriMesh.all_tri_nodes`, `TriMesh.triangles_and_points`, `TriMesh.tji_for_triangle_index`, `TriMesh.triangle_index_for_tji`, `TriMesh.edge_zero_crossings`, `TriMesh.axial_edge_crossings`
* `surface/_tri_mesh_stencil.py` (Stencil): 8 of 12 functions: `TriMeshStencil.__init__`, `TriMeshStencil.for_constant_normalized`, `TriMeshStencil.for_constant_unnormalized`, `TriMeshStencil.for_linear_normalized`, `TriMeshStencil.for_linear_unnormalized`, `TriMeshStencil.apply`, `_apply_stencil_simple`, `_apply_stencil_nanmean`
* `surface/_triangulated_patch.py` (Surface): 16 of 21 functions: `TriangulatedPatch.__init__`, `TriangulatedPatch.triangles_and_points`, `TriangulatedPatch.set_to_trimmed_patch`, `TriangulatedPatch.set_to_horizontal_plane`, `TriangulatedPatch.set_to_sail`, `TriangulatedPatch.set_to_sail.sail_point`, `TriangulatedPatch.set_from_irregular_mesh`, `TriangulatedPatch.set_from_sparse_mesh`, `TriangulatedPatch.get_indices_from_sparse_meshxyz`, `TriangulatedPatch.set_from_torn_mesh`, `TriangulatedPatch.column_from_triangle_index`, `TriangulatedPatch.set_to_cell_faces_from_corner_points`, `TriangulatedPatch.get_triangles_for_cell_faces_quad_false`, `TriangulatedPatch.get_triangles_for_cell_faces_quad_true`, `TriangulatedPatch.face_from_triangle_index`, `TriangulatedPatch.vertical_rescale_points`
* `time_series/_any_time_series.py` (GeoTime): 6 of 10 functions: `AnyTimeSeries._load_from_xml`, `AnyTimeSeries.is_equivalent`, `AnyTimeSeries.timestamp`, `AnyTimeSeries.last_timestamp`, `AnyTimeSeries.index_for_timestamp`, `AnyTimeSeries.create_xml`
* `time_series/_functions.py` (GeoTime, TimeSeries): 6 of 8 functions: `selected_time_series`, `cleaned_timestamp`, `time_series_from_list`, `merge_timeseries_from_uuid`, `geologic_time_str`, `timeframe_for_time_series_uuid`
* `time_series/_geologic_time_series.py` (GeoTime): 3 of 3 functions: `GeologicTimeSeries.__init__`, `GeologicTimeSeries.from_year_list`, `GeologicTimeSeries.is_equivalent`
* `time_series/_time_duration.py` (TimeSeries): 2 of 3 functions: `TimeDuration.__init__`, `TimeDuration.timestamp_after_duration`
* `time_series/_time_series.py` (GeoTime, TimeSeries): 9 of 17 functions: `TimeSeries.index_for_timestamp_not_later_than`, `TimeSeries.index_for_timestamp_not_earlier_than`, `TimeSeries.index_for_timestamp_closest_to`, `TimeSeries.duration_between_timestamps`, `TimeSeries.step_duration`, `TimeSeries.add_timestamp`, `TimeSeries.extend_by_duration`, `TimeSeries.datetimes`, `check_timestamp`
* `unstructured/_hexa_grid.py` (GridKind, Unstruct, Volume): 3 of 5 functions: `HexaGrid.__init__`, `HexaGrid.from_unsplit_grid`, `HexaGrid.volume`
* `unstructured/_prism_grid.py` (GridKind, Transmit, Unstruct): 12 of 15 functions: `PrismGrid.__init__`, `VerticalPrismGrid.__init__`, `VerticalPrismGrid.from_surfaces`, `VerticalPrismGrid.from_surfaces.find_pair`, `VerticalPrismGrid.from_surfaces.find_pair.frp`, `VerticalPrismGrid.column_count`, `VerticalPrismGrid.corner_points`, `VerticalPrismGrid.thickness`, `VerticalPrismGrid.top_faces`, `VerticalPrismGrid.triangulation`, `VerticalPrismGrid.triple_horizontal_permeability`, `VerticalPrismGrid.half_cell_transmissibility`
* `unstructured/_pyramid_grid.py` (GridKind, Unstruct): 4 of 5 functions: `PyramidGrid.__init__`, `PyramidGrid.face_indices_for_cell`, `PyramidGrid.face_indices_and_handedness_for_cell`, `PyramidGrid.volume`
* `unstructured/_tetra_grid.py` (GridKind, Unstruct): 5 of 11 functions: `TetraGrid.__init__`, `TetraGrid.volume`, `TetraGrid.grid_volume`, `TetraGrid.from_unstructured_cell`, `TetraGrid.from_unstructured_cell._min_max`
* `unstructured/_unstructured_grid.py` (GridKind, Unstruct): 24 of 45 functions: `UnstructuredGrid.__init__`, `UnstructuredGrid._load_from_xml`, `UnstructuredGrid._load_jagged_array`, `UnstructuredGrid.set_cells_per_face`, `UnstructuredGrid.masked_cells_per_face`, `UnstructuredGrid.external_face_indices`, `UnstructuredGrid.external_face_indices_for_masked_cells`, `UnstructuredGrid.internal_face_indices_for_masked_cells`, `UnstructuredGrid.face_count_for_cell`, `UnstructuredGrid.max_face_count_for_any_cell`, `UnstructuredGrid.node_count_for_face`, `UnstructuredGrid.max_node_count_for_any_face`, `UnstructuredGrid.node_indices_for_face`, `UnstructuredGrid.distinct_node_indices_for_cell`, `UnstructuredGrid.face_indices_for_cell`, `UnstructuredGrid.face_indices_and_handedness_for_cell`, `UnstructuredGrid.edges_for_face`, `UnstructuredGrid.edges_for_face_with_node_indices_ordered_within_pairs`, `UnstructuredGrid.distinct_edges_for_cell`, `UnstructuredGrid.cell_face_centre_points`, `UnstructuredGrid.face_triangulation`, `UnstructuredGrid.cell_centre_point`, `UnstructuredGrid.volume`, `UnstructuredGrid.create_xml`
* `weights_and_measures/weights_and_measures.py` (Units): 11 of 22 functions: `rq_uom`, `convert`, `valid_uoms`, `convert_transmissibilities`, `convert_transmissibilities.uom_components`, `convert_transmissibilities.check_vol_unit`, `convert_transmissibilities.check_visc_unit`, `convert_transmissibilities.check_press_unit`, `convert_transmissibilities.check_time_unit`, `get_conversion_factors`, `_try_parse_unit`
* `well/_blocked_well.py` (Blocking, Wells): 52 of 114 functions: `BlockedWell.__init__`, `BlockedWell.map_cell_and_grid_indices`, `BlockedWell.compressed_grid_indices`, `BlockedWell.interval_for_cell`, `BlockedWell.entry_and_exit_mds`, `BlockedWell._set_cell_interval_map`, `BlockedWell.set_for_column`, `BlockedWell.derive_from_wellspec`, `BlockedWell.derive_from_cell_list`, `BlockedWell.derive_from_dataframe`, `BlockedWell.__cell_kji0_from_df`, `BlockedWell.__verify_grid_name`, `BlockedWell.__calculate_entry_and_exit_axes_polarities_and_points`, `BlockedWell.__fabricate_entry_axis_and_polarity_using_indices`, `BlockedWell.__fabricate_exit_axis_and_polarity_using_indices`, `BlockedWell.__override_vector_based_xyz_entry_and_exit_points_if_necessary`, `BlockedWell.__add_interval`, `BlockedWell.__add_tail_to_trajectory_if_necessary`, `BlockedWell.__add_as_properties_if_specified`, `BlockedWell.dataframe`, `BlockedWell.wb_cell_for_md`, `BlockedWell.__prop_array`, `BlockedWell.__get_ref_vector`, `BlockedWell.__verify_angle_references`, `BlockedWell.__verify_saturation_ranges_and_property_uuids`, `BlockedWell.__verify_extra_properties_to_be_added_to_dataframe`, `BlockedWell.__check_skin_stat_radw_to_be_added_as_properties`, `BlockedWell.__verify_perm_i_uuid_for_well_inflow`, `BlockedWell.__verify_perm_i_uuid_for_kh`, `BlockedWell.__verify_perm_j_k_uuids_for_kh_and_well_inflow`, `BlockedWell.__verify_k_layers_to_be_included`, `BlockedWell.__verify_if_angles_xyz_and_length_to_be_added`, `BlockedWell.__check_cell_depth`, `BlockedWell.__skip_interval_check`, `BlockedWell.__get_part_perf_fraction_for_interval`, `BlockedWell.__get_entry_exit_xyz_and_crs_for_interval`, `BlockedWell.__get_length_of_interval`, `BlockedWell._single_uom_xyz`, `BlockedWell.__get_angles_for_interval`, `BlockedWell.__get_angla_for_interval`, `BlockedWell.__get_anglv_for_interval`, `BlockedWell.__get_ntg_and_directional_perm_for_interval`, `BlockedWell.__get_kh_for_interval`, `BlockedWell.__get_kh_if_doing_kh`, `BlockedWell.__get_well_inflow_parameters_for_interval`, `BlockedWell.__calculate_ke_and_radw_e`, `BlockedWell.__calculate_radb_e`, `BlockedWell.__get_xyz_if_doing_xyz`, `BlockedWell.__append_interval_data_to_dataframe`, `BlockedWell.__add_as_properties`, `BlockedWell.add_df_properties`, `BlockedWell.static_kh`
* `well/_deviation_survey.py` (Wells): 1 of 12 functions: `DeviationSurvey.__init__`
* `well/_md_datum.py` (Marker): 5 of 6 functions: `MdDatum.__init__`, `MdDatum._load_from_xml`, `MdDatum.extract_crs_uuid`, `MdDatum.create_xml`, `MdDatum.is_equivalent`
* `well/_trajectory.py` (Wells): 7 of 33 functions: `Trajectory.__init__`, `Trajectory.compute_from_deviation_survey`, `Trajectory.__calculate_trajectory_from_inclination_and_azimuth`, `Trajectory.xyz_for_md`, `Trajectory.xyz_for_md.interpolate`, `Trajectory.xyz_for_md.search`, `Trajectory.inclinations`
* `well/_wellbore_frame.py` (Frame, Marker, Wells): 5 of 12 functions: `WellboreFrame.__init__`, `WellboreFrame._load_from_xml`, `WellboreFrame.interval_for_md`, `WellboreFrame.write_hdf5`, `WellboreFrame.create_xml`
* `well/_wellbore_marker.py` (Marker): 3 of 3 functions: `WellboreMarker.__init__`, `WellboreMarker.create_xml`, `WellboreMarker._load_from_xml`
* `well/_wellbore_marker_frame.py` (Marker): 12 of 13 functions: `WellboreMarkerFrame.__init__`, `WellboreMarkerFrame.from_dataframe`, `WellboreMarkerFrame.__parse_dataframe_row_for_interp_uuid`, `WellboreMarkerFrame._create_feature_and_interpretation`, `WellboreMarkerFrame._load_from_xml`, `WellboreMarkerFrame.dataframe`, `WellboreMarkerFrame.create_xml`, `WellboreMarkerFrame.__get_wbm_node_title`, `WellboreMarkerFrame.__add_sub_elements_to_root_node`, `WellboreMarkerFrame.write_hdf5`, `WellboreMarkerFrame.find_marker_index_from_interp`, `WellboreMarkerFrame.find_marker_from_index`
* `well/blocked_well_frame.py` (Frame, Wells): 2 of 3 functions: `blocked_well_frame_contributions_list`, `add_blocked_well_properties_from_wellbore_frame`

Not modelled at all: `derived_model/_add_edges_per_column_property_array.py`, `derived_model/_add_one_blocked_well_property.py`, `derived_model/_add_one_grid_property_array.py`, `derived_model/_add_single_cell_grid.py`, `derived_model/_add_wells_from_ascii_file.py`, `derived_model/_add_zone_by_layer_property.py`, `derived_model/_common.py`, `derived_model/_copy_grid.py`, `derived_model/_extract_box_for_well.py`, `derived_model/_tilted_grid.py`, `grid/_cell_properties.py`, `grid/_intervals_info.py`, `grid/_moved_functions.py`, `grid/_write_hdf5_from_caches.py`, `grid/_write_nexus_corp.py`, `grid/_xyz.py`, `grid_surface/_blocked_well_populate.py`, `grid_surface/_grid_skin.py`, `grid_surface/_grid_surface.py`, `grid_surface/_trajectory_intersects.py`, `grid_surface/grid_surface_cuda.py`, `model/_context.py`, `multi_processing/wrappers/blocked_well_mp.py`, `multi_processing/wrappers/grid_surface_mp.py`, `multi_processing/wrappers/mesh_mp.py`, `olio/ab_toolbox.py`, `olio/class_dict.py`, `olio/data/build.py`, `olio/random_seed.py`, `olio/time.py`, `olio/trademark.py`, `olio/vdb.py`, `olio/xml_namespaces.py`, `organize/rock_fluid_unit_feature.py`, `organize/structural_organization_interpretation.py`, `property/_property.py`, `property/well_interval_property.py`, `property/well_interval_property_collection.py`, `property/well_log.py`, `property/well_log_collection.py`, `rq_import/_add_ab_properties.py`, `rq_import/_add_surfaces.py`, `rq_import/_import_nexus.py`, `rq_import/_import_vdb_all_grids.py`, `rq_import/_import_vdb_ensemble.py`, `strata/_strata_common.py`, `surface/_base_surface.py`, `surface/_pointset.py`, `time_series/_from_nexus_summary.py`, `weights_and_measures/nexus_units.py`, `well/well_object_funcs.py`, `well/well_utils.py`.
